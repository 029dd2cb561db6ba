import Verif.Props.TextCurves
import Verif.Props.ClientBounds
import Verif.Props.SmallMulAll
import Verif.Props.Total

/-!
# C59: computations and clients of the program text

C54 says what a single call of a function of the text does.  Here whole computations (`Ex`, `ExM`, `ExW`) and
clients that look at intermediate results (`Client`, C53) are run by calling the functions of the text with
the interpreter, values of the interpreter being passed from call to call and never looked into except by
the clients' observations.  What is proved of the model of computations (C08, C51, C52) and of clients (C53)
becomes a theorem about the text.
-/

namespace Verif

open Rust

/-! ### Calls -/

/-- The result of a call. -/
def ret (x : Except Err (Val × List Val)) : Except Err Val := x >>= fun r => .ok r.1

/-- The first argument of a call after it, when that is a reference. -/
def own (x : Except Err (Val × List Val)) : Except Err Val :=
  x >>= fun r => match r.2 with
    | .ref v :: _ => .ok v
    | _ => .error .stuck

section
variable (P : Program) (w : World) (n : Nat) (f : Fld)

/-- `T::m()` -/
def txt0 (m : Id) : Except Err Val := ret (callFn P w n (tyId f) m [])

/-- `x.m()` for `fn m(&self) -> T` -/
def txt1 (m : Id) (x : Val) : Except Err Val := ret (callFn P w n (tyId f) m [.ref x])

/-- `x.m(k)` for `fn m(&self, k: i32) -> T` -/
def txtI (m : Id) (k : Int) (x : Val) : Except Err Val := ret (callFn P w n (tyId f) m [.ref x, i32V k])

/-- `x` after `x.m()` for `fn m(&mut self)` -/
def txtM (m : Id) (x : Val) : Except Err Val := own (callFn P w n (tyId f) m [.ref x])

/-- `x` after `x.m(&y)` or `x.m(&mut y)` -/
def txtM2 (m : Id) (x y : Val) : Except Err Val := own (callFn P w n (tyId f) m [.ref x, .ref y])

/-- `&x ∘ &y` -/
def txt2 (o : Id) (x y : Val) : Except Err Val := ret (callOp P w n o (.ref x) (.ref y))

/-- `T::unpacked(&bs)` -/
def txtB (bs : List Int) : Except Err Val := ret (callFn P w n (tyId f) (id! "unpacked") [slice bs])

/-- `T::rand(&mut rng)` with a generator that has not been used before -/
def txtR (rng : Nat → Int → Int) : Except Err Val :=
  ret (callFn P { w with rng := rng } n (tyId f) (id! "rand") [.ref (.rng 0)])

/-- `-x` -/
def txtN (x : Val) : Except Err Val := ret (callFn P w n (tyId f) (id! "neg") [x])

/-! ### Computations -/

/-- Run a computation by calling the functions of the text. -/
def Ex.text : Ex → Except Err Val
  | zero => txt0 P w n f (id! "zero")
  | one => txt0 P w n f (id! "one")
  | mOne => txt0 P w n f (id! "m_one")
  | modulus => txt0 P w n f (id! "modulus")
  | bytes bs => txtB P w n f bs
  | rand rng => txtR P w n f rng
  | add a b => do txt2 P w n (id! "Add") (← a.text) (← b.text)
  | sub a b => do txt2 P w n (id! "Sub") (← a.text) (← b.text)
  | mul a b => do txt2 P w n (id! "Mul") (← a.text) (← b.text)
  | div a b => do txt2 P w n (id! "Div") (← a.text) (← b.text)
  | addI a k => do txtI P w n f (id! "small_add") k (← a.text)
  | subI a k => do txtI P w n f (id! "small_sub") k (← a.text)
  | square a => do txt1 P w n f (id! "squared") (← a.text)
  | normalize a => do txtM P w n f (id! "normalize") (← a.text)
  | neg a => do txtN P w n f (← a.text)
  | invert a => do txt1 P w n f (id! "inverted") (← a.text)
  | legendre a => do txt1 P w n f (id! "legendre") (← a.text)
  | sqrt a => do txt1 P w n f (id! "sqrt") (← a.text)

/-- The same with multiplications by integers (C51). -/
def ExM.text : ExM → Except Err Val
  | of e => e.text P w n f
  | add a b => do txt2 P w n (id! "Add") (← a.text) (← b.text)
  | sub a b => do txt2 P w n (id! "Sub") (← a.text) (← b.text)
  | mul a b => do txt2 P w n (id! "Mul") (← a.text) (← b.text)
  | div a b => do txt2 P w n (id! "Div") (← a.text) (← b.text)
  | addI a k => do txtI P w n f (id! "small_add") k (← a.text)
  | subI a k => do txtI P w n f (id! "small_sub") k (← a.text)
  | mulI a k => do txtI P w n f (id! "small_mul") k (← a.text)
  | square a => do txt1 P w n f (id! "squared") (← a.text)
  | normalize a => do txtM P w n f (id! "normalize") (← a.text)
  | neg a => do txtN P w n f (← a.text)
  | invert a => do txt1 P w n f (id! "inverted") (← a.text)
  | legendre a => do txt1 P w n f (id! "legendre") (← a.text)
  | sqrt a => do txt1 P w n f (id! "sqrt") (← a.text)

/-- The same from arbitrary words (C52). -/
def ExW.text : ExW → Except Err Val
  | words a => .ok (elem (tyId f) a)
  | bytes bs => txtB P w n f bs
  | rand rng => txtR P w n f rng
  | add a b => do txt2 P w n (id! "Add") (← a.text) (← b.text)
  | sub a b => do txt2 P w n (id! "Sub") (← a.text) (← b.text)
  | mul a b => do txt2 P w n (id! "Mul") (← a.text) (← b.text)
  | div a b => do txt2 P w n (id! "Div") (← a.text) (← b.text)
  | bitand a b => do txtM2 P w n f (id! "normalize_bitand") (← a.text) (← b.text)
  | bitor a b => do txtM2 P w n f (id! "normalize_bitor") (← a.text) (← b.text)
  | addI a k => do txtI P w n f (id! "small_add") k (← a.text)
  | subI a k => do txtI P w n f (id! "small_sub") k (← a.text)
  | mulI a k => do txtI P w n f (id! "small_mul") k (← a.text)
  | square a => do txt1 P w n f (id! "squared") (← a.text)
  | normalize a => do txtM P w n f (id! "normalize") (← a.text)
  | neg a => do txtN P w n f (← a.text)
  | invert a => do txt1 P w n f (id! "inverted") (← a.text)
  | legendre a => do txt1 P w n f (id! "legendre") (← a.text)
  | sqrt a => do txt1 P w n f (id! "sqrt") (← a.text)

/-! ### Clients -/

/-- An instruction of a client; `z` stands for the result of `zero()`. -/
def Op.text (z : Val) (rs : List Val) (o : Op) : Except Err Val :=
  let r := fun i => rs.getD i z
  match o with
  | zero => txt0 P w n f (id! "zero")
  | one => txt0 P w n f (id! "one")
  | mOne => txt0 P w n f (id! "m_one")
  | modulus => txt0 P w n f (id! "modulus")
  | bytes bs => txtB P w n f bs
  | rand rng => txtR P w n f rng
  | add i j => txt2 P w n (id! "Add") (r i) (r j)
  | sub i j => txt2 P w n (id! "Sub") (r i) (r j)
  | mul i j => txt2 P w n (id! "Mul") (r i) (r j)
  | div i j => txt2 P w n (id! "Div") (r i) (r j)
  | addI i k => txtI P w n f (id! "small_add") k (r i)
  | subI i k => txtI P w n f (id! "small_sub") k (r i)
  | square i => txt1 P w n f (id! "squared") (r i)
  | invert i => txt1 P w n f (id! "inverted") (r i)
  | legendre i => txt1 P w n f (id! "legendre") (r i)
  | sqrt i => txt1 P w n f (id! "sqrt") (r i)
  | select b i j => do
    let m ← ret (callFn P w n (tyId f) (id! "filled") [.bool b])
    let x ← txtM2 P w n f (id! "normalized_bitand") (r i) m
    let m ← ret (callFn P w n (tyId f) (id! "filled") [.bool !b])
    let y ← txtM2 P w n f (id! "normalized_bitand") (r j) m
    txtM2 P w n f (id! "normalized_bitor") x y

/-- What a client sees of a boolean. -/
def seeBool : Val → Except Err Bool
  | .bool b => .ok b
  | _ => .error .stuck

/-- What a client sees of an array of bytes. -/
def seeBytes : Val → Except Err (List Int)
  | .arr vs => vs.mapM fun
    | .int (some .u8) x => .ok x
    | _ => .error .stuck
  | _ => .error .stuck

/-- What a client sees of what has been written to a formatter. -/
def seeFmt : Val → Except Err (List Char)
  | .ref (.fmt s) => .ok s
  | _ => .error .stuck

/-- `format!("{:x}", x)` or `format!("{:X}", x)`: call the function of the trait with an empty formatter. -/
def txtH (upper : Bool) (x : Val) : Except Err (List Char) :=
  match P.opFn (if upper then id! "UpperHex" else id! "LowerHex") (false, tyId f) (false, tyId f) with
  | some fn => run P w n fn [.ref x, .ref (.fmt [])] >>= fun r => seeFmt (r.2.getD 1 .unit)
  | none => .error .stuck

/-- Run a client by calling the functions of the text. -/
def Client.textFrom (nrm : Bool) (z : Val) {α : Type} : Client α → List Val → Except Err α
  | done x, _ => .ok x
  | step o k, rs => do
    let x ← o.text P w n f z rs
    let x ← if nrm then txtM P w n f (id! "normalize") x else .ok x
    k.textFrom nrm z (rs ++ [x])
  | normalize i k, rs => do
    k.textFrom nrm z (rs.set i (← txtM P w n f (id! "normalize") (rs.getD i z)))
  | eq i j k, rs => do
    let r ← callFn P w n (tyId f) (id! "normalize_eq") [.ref (rs.getD i z), .ref (rs.getD j z)]
    let b ← seeBool r.1
    (k b).textFrom nrm z ((rs.set i (r.2.getD 0 .unit).strip).set j (r.2.getD 1 .unit).strip)
  | bit i idx k, rs => do
    let r ← callFn P w n (tyId f) (id! "bit") [.ref (rs.getD i z), usize idx]
    let b ← seeBool r.1
    (k b).textFrom nrm z (rs.set i (r.2.getD 0 .unit).strip)
  | packed i k, rs => do
    let r ← callFn P w n (tyId f) (id! "packed") [.ref (rs.getD i z)]
    let out ← seeBytes r.1
    (k out).textFrom nrm z (rs.set i (r.2.getD 0 .unit).strip)
  | hex upper i k, rs => do
    let s ← txtH P w n f upper (rs.getD i z)
    (k s).textFrom nrm z rs

/-- Run a client from the start. -/
def Client.text (nrm : Bool) {α : Type} (c : Client α) : Except Err α := do
  c.textFrom P w n f nrm (← txt0 P w n f (id! "zero")) []

end

/-! ### Proofs -/

/-- `x` is the value of the interpreter for `y`, which is an element with the right number of words. -/
def Computes (f : Fld) (x : Except Err Val) (y : Res Elem) : Prop :=
  x = (lift y >>= fun r => .ok (elem (tyId f) r)) ∧ ∀ r, y = .ok r → r.length = f.code.limbs

section
variable {f : Fld}

theorem Computes.bind {x : Except Err Val} {y : Res Elem} {g : Val → Except Err Val} {k : Elem → Res Elem}
    (h : Computes f x y) (hg : ∀ a, a.length = f.code.limbs → Computes f (g (elem (tyId f) a)) (k a)) :
    Computes f (x >>= g) (y >>= k) := by
  cases y with
  | error e => exact ⟨by rw [h.1]; rfl, nofun⟩
  | ok a =>
    rw [h.1]
    exact hg a (h.2 a rfl)

theorem Computes.bind2 {x x' : Except Err Val} {y y' : Res Elem} {g : Val → Val → Except Err Val}
    {k : Elem → Elem → Res Elem} (h : Computes f x y) (h' : Computes f x' y')
    (hg : ∀ a b, a.length = f.code.limbs → b.length = f.code.limbs →
      Computes f (g (elem (tyId f) a) (elem (tyId f) b)) (k a b)) :
    Computes f (x >>= fun u => x' >>= fun v => g u v) (y >>= fun a => y' >>= fun b => k a b) :=
  h.bind fun a ha => h'.bind fun b hb => hg a b ha hb

theorem Computes.map {x : Except Err (Val × List Val)} {y : Res Elem} {o : Elem → Val × List Val}
    {s : Except Err (Val × List Val) → Except Err Val}
    (h : x = (lift y >>= fun r => .ok (o r))) (hs : ∀ e, s (.error e) = .error e)
    (ho : ∀ r, s (.ok (o r)) = .ok (elem (tyId f) r)) (hl : ∀ r, y = .ok r → r.length = f.code.limbs) :
    Computes f (s x) y := by
  refine ⟨?_, hl⟩
  rw [h]
  cases y with
  | error e => exact hs _
  | ok r => exact ho r

theorem Computes.pure {a : Elem} (h : a.length = f.code.limbs) :
    Computes f (.ok (elem (tyId f) a)) (.ok a) :=
  ⟨rfl, fun r e => by rw [← Except.ok.inj e]; exact h⟩

theorem Computes.const {x : Except Err (Val × List Val)} {a : Elem} {l : List Val}
    (h : x = .ok (elem (tyId f) a, l)) (ha : a.length = f.code.limbs) : Computes f (ret x) (.ok a) := by
  rw [h]; exact .pure ha

variable {P : Program} (h : Has P f) (w : World) {n : Nat} (hn : 12 ≤ n)

theorem consts_length (f : Fld) : f.code.ONE.length = f.code.limbs ∧ f.code.M_ONE.length = f.code.limbs := by
  cases f <;> exact ⟨rfl, rfl⟩

include h in
theorem legendre_length (w : World) {a r : List Int} (ha : a.length = f.code.limbs)
    (hr : f.code.legendre w.pr a = .ok r) : r.length = f.code.limbs := by
  obtain ⟨h1, h2, h3⟩ := Chn.chain_legendre f
  obtain ⟨_, k1, _, k2, _⟩ := noQ_chains f
  exact (Chn.run_chain_ref h (w := w) (Nat.le_refl 4) h1 h2 h3 k2 (.inl k1) ha).2 r hr

include h in
theorem sqrt_length (w : World) {a r : List Int} (ha : a.length = f.code.limbs)
    (hr : f.code.sqrt w.pr a = .ok r) : r.length = f.code.limbs := by
  obtain ⟨h1, h2, h3⟩ := Chn.chain_sqrt f
  obtain ⟨_, _, _, _, k2, k3⟩ := noQ_chains f
  refine (Chn.run_chain_ref h (w := w) (show 4 ≤ 5 by decide) h1 h2 h3 k2 ?_ ha).2 r hr
  cases hq : f.code.quarticC with
  | none => exact .inl (k3 hq)
  | some c => exact .inr (quartic_call h w (by decide) (by rw [hq]; rfl))

theorem unpacked_length {pr : Profile} {bs : List Int} {r : Elem} (hr : f.code.unpacked pr bs = .ok r) :
    r.length = f.code.limbs := by
  rw [FieldCode.unpacked, FieldCode.unpack] at hr
  obtain ⟨ρ, -, hr⟩ := Chn.bind_eq_ok hr
  rw [← Except.ok.inj hr, readSlots_length]

theorem rand_length (rng : Nat → Int → Int) : (f.code.rand rng).length = f.code.limbs := by
  simp [FieldCode.rand]

include h hn

theorem computes_consts : Computes f (txt0 P w n f (id! "zero")) (.ok f.code.ZERO) ∧
    Computes f (txt0 P w n f (id! "one")) (.ok f.code.ONE) ∧
    Computes f (txt0 P w n f (id! "m_one")) (.ok f.code.M_ONE) ∧
    Computes f (txt0 P w n f (id! "modulus")) (.ok f.code.MODULUS) := by
  obtain ⟨h1, h2, h3, h4⟩ := C54_constants h w hn
  exact ⟨.const h1 (const_length f).1, .const h2 (consts_length f).1, .const h3 (consts_length f).2,
    .const h4 (const_length f).2⟩

theorem computes_bytes (bs : List Int) : Computes f (txtB P w n f bs) (f.code.unpacked w.pr bs) :=
  .map (C54_pack h w hn (const_length f).1 bs).2.1 (fun _ => rfl) (fun _ => rfl) fun _ => unpacked_length

theorem computes_rand (rng : Nat → Int → Int) : Computes f (txtR P w n f rng) (.ok (f.code.rand rng)) := by
  have e := C54_rand h { w with rng := rng } hn 0
  simp only [Nat.zero_add] at e
  exact .const e (rand_length rng)

variable {a b : Elem} (ha : a.length = f.code.limbs)
include ha

theorem computes_op (hb : b.length = f.code.limbs) :
    Computes f (txt2 P w n (id! "Add") (elem (tyId f) a) (elem (tyId f) b)) (f.code.add w.pr a b) ∧
    Computes f (txt2 P w n (id! "Sub") (elem (tyId f) a) (elem (tyId f) b)) (f.code.sub w.pr a b) ∧
    Computes f (txt2 P w n (id! "Mul") (elem (tyId f) a) (elem (tyId f) b)) (f.code.mul w.pr a b) ∧
    Computes f (txt2 P w n (id! "Div") (elem (tyId f) a) (elem (tyId f) b)) (f.code.div w.pr a b) := by
  have k := fun o => C54_operators h w hn (o := o) (assign := false) (l := .ref) (r := .ref) rfl
    (x := .elem a) (y := .elem b) trivial trivial ha hb
  refine ⟨.map (k .add) (fun _ => rfl) (fun _ => rfl) fun _ hr => ?_,
    .map (k .sub) (fun _ => rfl) (fun _ => rfl) fun _ hr => ?_,
    .map (k .mul) (fun _ => rfl) (fun _ => rfl) fun _ hr => ?_,
    .map (k .div) (fun _ => rfl) (fun _ => rfl) fun _ hr => ?_⟩
  · exact runLimb_length hr
  · exact runLimb_length hr
  · exact runLimb_length hr
  · rw [FieldCode.div, FieldCode.divAssign] at hr
    obtain ⟨_, _, hr⟩ := Chn.bind_eq_ok hr
    exact runLimb_length hr

theorem computes_int (k : Int) :
    Computes f (txtI P w n f (id! "small_add") k (elem (tyId f) a)) (f.code.smallAdd w.pr a k) ∧
    Computes f (txtI P w n f (id! "small_sub") k (elem (tyId f) a)) (f.code.smallSub w.pr a k) ∧
    Computes f (txtI P w n f (id! "small_mul") k (elem (tyId f) a)) (f.code.smallMul w.pr a k) := by
  obtain ⟨-, -, -, h1, h2, h3⟩ := C54_small h w hn ha k
  exact ⟨.map h1 (fun _ => rfl) (fun _ => rfl) fun _ hr => runLimb_length hr,
    .map h2 (fun _ => rfl) (fun _ => rfl) fun _ hr => runLimb_length hr,
    .map h3 (fun _ => rfl) (fun _ => rfl) fun _ hr => runLimb_length hr⟩

theorem computes_unary :
    Computes f (txt1 P w n f (id! "squared") (elem (tyId f) a)) (f.code.squared w.pr a) ∧
    Computes f (txt1 P w n f (id! "inverted") (elem (tyId f) a)) (f.code.inverted w.pr a) ∧
    Computes f (txt1 P w n f (id! "legendre") (elem (tyId f) a)) (f.code.legendre w.pr a) ∧
    Computes f (txt1 P w n f (id! "sqrt") (elem (tyId f) a)) (f.code.sqrt w.pr a) ∧
    Computes f (txtN P w n f (elem (tyId f) a)) (f.code.neg w.pr a) ∧
    Computes f (txtM P w n f (id! "normalize") (elem (tyId f) a)) (f.code.normalize w.pr a) := by
  obtain ⟨h1, h2, h3, h4, h5⟩ := C54_unary h w hn ha
  obtain ⟨-, -, h6⟩ := C54_in_place h w hn ha
  exact ⟨.map h1 (fun _ => rfl) (fun _ => rfl) fun _ hr => runLimb_length hr,
    .map h2 (fun _ => rfl) (fun _ => rfl) fun _ hr => invert_length h w ha hr,
    .map h3 (fun _ => rfl) (fun _ => rfl) fun _ hr => legendre_length h w ha hr,
    .map h4 (fun _ => rfl) (fun _ => rfl) fun _ hr => sqrt_length h w ha hr,
    .map h5 (fun _ => rfl) (fun _ => rfl) fun _ hr => runLimb_length hr,
    .map h6 (fun _ => rfl) (fun _ => rfl) fun _ hr => normalize_length hr⟩

theorem computes_bits (hb : b.length = f.code.limbs) :
    Computes f (txtM2 P w n f (id! "normalized_bitand") (elem (tyId f) a) (elem (tyId f) b))
      (.ok (FieldCode.normalizedBitand a b)) ∧
    Computes f (txtM2 P w n f (id! "normalized_bitor") (elem (tyId f) a) (elem (tyId f) b))
      (.ok (FieldCode.normalizedBitor a b)) ∧
    Computes f (txtM2 P w n f (id! "normalize_bitand") (elem (tyId f) a) (elem (tyId f) b))
      (f.code.normalizeBitand w.pr a b >>= fun r => .ok r.1) ∧
    Computes f (txtM2 P w n f (id! "normalize_bitor") (elem (tyId f) a) (elem (tyId f) b))
      (f.code.normalizeBitor w.pr a b >>= fun r => .ok r.1) := by
  obtain ⟨h1, h2, -, -, h3, h4⟩ := C54_bitwise h w hn ha hb
  refine ⟨?_, ?_, ?_, ?_⟩
  · rw [txtM2, show callFn _ _ _ _ _ _ = _ from h1]; exact .pure (bits_length ha hb).1
  · rw [txtM2, show callFn _ _ _ _ _ _ = _ from h2]; exact .pure (bits_length ha hb).2
  · rw [txtM2, show callFn _ _ _ _ _ _ = _ from h3]
    simp only [FieldCode.normalizeBitand, FieldCode.normalizeSelfBitand]
    cases hb' : f.code.normalize w.pr b with
    | error e => exact ⟨rfl, nofun⟩
    | ok y =>
      cases ha' : f.code.normalize w.pr a with
      | error e => exact ⟨rfl, nofun⟩
      | ok x => exact .pure (bits_length (normalize_length ha') (normalize_length hb')).1
  · rw [txtM2, show callFn _ _ _ _ _ _ = _ from h4]
    simp only [FieldCode.normalizeBitor, FieldCode.normalizeSelfBitor]
    cases hb' : f.code.normalize w.pr b with
    | error e => exact ⟨rfl, nofun⟩
    | ok y =>
      cases ha' : f.code.normalize w.pr a with
      | error e => exact ⟨rfl, nofun⟩
      | ok x => exact .pure (bits_length (normalize_length ha') (normalize_length hb')).2

omit ha

/-- Computations: the text does what the model does. -/
theorem Ex.text_eq (e : Ex) : Computes f (e.text P w n f) (e.exec f w.pr) := by
  induction e with
  | zero => exact (computes_consts h w hn).1
  | one => exact (computes_consts h w hn).2.1
  | mOne => exact (computes_consts h w hn).2.2.1
  | modulus => exact (computes_consts h w hn).2.2.2
  | bytes bs => exact computes_bytes h w hn bs
  | rand rng => exact computes_rand h w hn rng
  | add a b iha ihb => exact iha.bind2 ihb fun _ _ ha hb => (computes_op h w hn ha hb).1
  | sub a b iha ihb => exact iha.bind2 ihb fun _ _ ha hb => (computes_op h w hn ha hb).2.1
  | mul a b iha ihb => exact iha.bind2 ihb fun _ _ ha hb => (computes_op h w hn ha hb).2.2.1
  | div a b iha ihb => exact iha.bind2 ihb fun _ _ ha hb => (computes_op h w hn ha hb).2.2.2
  | addI a k iha => exact iha.bind fun _ ha => (computes_int h w hn ha k).1
  | subI a k iha => exact iha.bind fun _ ha => (computes_int h w hn ha k).2.1
  | square a iha => exact iha.bind fun _ ha => (computes_unary h w hn ha).1
  | normalize a iha => exact iha.bind fun _ ha => (computes_unary h w hn ha).2.2.2.2.2
  | neg a iha => exact iha.bind fun _ ha => (computes_unary h w hn ha).2.2.2.2.1
  | invert a iha => exact iha.bind fun _ ha => (computes_unary h w hn ha).2.1
  | legendre a iha => exact iha.bind fun _ ha => (computes_unary h w hn ha).2.2.1
  | sqrt a iha => exact iha.bind fun _ ha => (computes_unary h w hn ha).2.2.2.1

theorem ExM.text_eq (e : ExM) : Computes f (e.text P w n f) (e.exec f w.pr) := by
  induction e with
  | of e => exact Ex.text_eq h w hn e
  | add a b iha ihb => exact iha.bind2 ihb fun _ _ ha hb => (computes_op h w hn ha hb).1
  | sub a b iha ihb => exact iha.bind2 ihb fun _ _ ha hb => (computes_op h w hn ha hb).2.1
  | mul a b iha ihb => exact iha.bind2 ihb fun _ _ ha hb => (computes_op h w hn ha hb).2.2.1
  | div a b iha ihb => exact iha.bind2 ihb fun _ _ ha hb => (computes_op h w hn ha hb).2.2.2
  | addI a k iha => exact iha.bind fun _ ha => (computes_int h w hn ha k).1
  | subI a k iha => exact iha.bind fun _ ha => (computes_int h w hn ha k).2.1
  | mulI a k iha => exact iha.bind fun _ ha => (computes_int h w hn ha k).2.2
  | square a iha => exact iha.bind fun _ ha => (computes_unary h w hn ha).1
  | normalize a iha => exact iha.bind fun _ ha => (computes_unary h w hn ha).2.2.2.2.2
  | neg a iha => exact iha.bind fun _ ha => (computes_unary h w hn ha).2.2.2.2.1
  | invert a iha => exact iha.bind fun _ ha => (computes_unary h w hn ha).2.1
  | legendre a iha => exact iha.bind fun _ ha => (computes_unary h w hn ha).2.2.1
  | sqrt a iha => exact iha.bind fun _ ha => (computes_unary h w hn ha).2.2.2.1

theorem ExW.text_eq (e : ExW) (he : e.Typed f) : Computes f (e.text P w n f) (e.exec f w.pr) := by
  induction e with
  | words a => exact .pure (he.1.trans (by cases f <;> rfl))
  | bytes bs => exact computes_bytes h w hn bs
  | rand rng => exact computes_rand h w hn rng
  | add a b iha ihb => exact (iha he.1).bind2 (ihb he.2) fun _ _ ha hb => (computes_op h w hn ha hb).1
  | sub a b iha ihb => exact (iha he.1).bind2 (ihb he.2) fun _ _ ha hb => (computes_op h w hn ha hb).2.1
  | mul a b iha ihb => exact (iha he.1).bind2 (ihb he.2) fun _ _ ha hb => (computes_op h w hn ha hb).2.2.1
  | div a b iha ihb => exact (iha he.1).bind2 (ihb he.2) fun _ _ ha hb => (computes_op h w hn ha hb).2.2.2
  | bitand a b iha ihb =>
    exact (iha he.1).bind2 (ihb he.2) fun _ _ ha hb => (computes_bits h w hn ha hb).2.2.1
  | bitor a b iha ihb =>
    exact (iha he.1).bind2 (ihb he.2) fun _ _ ha hb => (computes_bits h w hn ha hb).2.2.2
  | addI a k iha => exact (iha he.1).bind fun _ ha => (computes_int h w hn ha k).1
  | subI a k iha => exact (iha he.1).bind fun _ ha => (computes_int h w hn ha k).2.1
  | mulI a k iha => exact (iha he.1).bind fun _ ha => (computes_int h w hn ha k).2.2
  | square a iha => exact (iha he).bind fun _ ha => (computes_unary h w hn ha).1
  | normalize a iha => exact (iha he).bind fun _ ha => (computes_unary h w hn ha).2.2.2.2.2
  | neg a iha => exact (iha he).bind fun _ ha => (computes_unary h w hn ha).2.2.2.2.1
  | invert a iha => exact (iha he).bind fun _ ha => (computes_unary h w hn ha).2.1
  | legendre a iha => exact (iha he).bind fun _ ha => (computes_unary h w hn ha).2.2.1
  | sqrt a iha => exact (iha he).bind fun _ ha => (computes_unary h w hn ha).2.2.2.1

/-! Clients. -/

omit h hn in
theorem getD_map (rs : List Elem) (i : Nat) (z : Elem) :
    (rs.map (elem (tyId f))).getD i (elem (tyId f) z) = elem (tyId f) (rs.getD i z) := by
  rw [List.getD_eq_getElem?_getD, List.getD_eq_getElem?_getD, List.getElem?_map]
  cases rs[i]? <;> rfl

omit h hn in
theorem getD_fits {rs : List Elem} (hrs : ∀ a ∈ rs, a.length = f.code.limbs) (i : Nat) :
    (rs.getD i f.code.ZERO).length = f.code.limbs := by
  rw [List.getD_eq_getElem?_getD]
  by_cases hi : i < rs.length
  · rw [List.getElem?_eq_getElem hi]; exact hrs _ (List.getElem_mem hi)
  · rw [List.getElem?_eq_none (by omega)]; exact (const_length f).1

theorem Op.text_eq (o : Op) {rs : List Elem} (hrs : ∀ a ∈ rs, a.length = f.code.limbs) :
    Computes f (o.text P w n f (elem (tyId f) f.code.ZERO) (rs.map (elem (tyId f)))) (o.exec f w.pr rs) := by
  have k := fun i => getD_fits hrs i
  cases o <;> simp only [Op.text, Op.exec, getD_map]
  case zero => exact (computes_consts h w hn).1
  case one => exact (computes_consts h w hn).2.1
  case mOne => exact (computes_consts h w hn).2.2.1
  case modulus => exact (computes_consts h w hn).2.2.2
  case bytes bs => exact computes_bytes h w hn bs
  case rand rng => exact computes_rand h w hn rng
  case add i j => exact (computes_op h w hn (k i) (k j)).1
  case sub i j => exact (computes_op h w hn (k i) (k j)).2.1
  case mul i j => exact (computes_op h w hn (k i) (k j)).2.2.1
  case div i j => exact (computes_op h w hn (k i) (k j)).2.2.2
  case addI i m => exact (computes_int h w hn (k i) m).1
  case subI i m => exact (computes_int h w hn (k i) m).2.1
  case square i => exact (computes_unary h w hn (k i)).1
  case invert i => exact (computes_unary h w hn (k i)).2.1
  case legendre i => exact (computes_unary h w hn (k i)).2.2.1
  case sqrt i => exact (computes_unary h w hn (k i)).2.2.2.1
  case select b i j =>
    have hf := fun b => (C54_masks h w hn (k i) (t := tyId f) (by simp) b).2
    have hl := filled_length f
    have h1 := computes_bits h w hn (k i) (hl b)
    have h2 := computes_bits h w hn (k j) (hl !b)
    have h3 := computes_bits h w hn (bits_length (k i) (hl b)).1 (bits_length (k j) (hl !b)).1
    simp only [hf, ret, ok_bind, h1.1.1, h2.1.1, lift_ok]
    exact h3.2.1

omit h hn in
theorem seeBytes_bytes (l : List Int) : seeBytes (.arr (l.map byte)) = .ok l := by
  rw [seeBytes]
  induction l with
  | nil => rfl
  | cons x xs ih =>
    rw [List.map_cons, List.mapM_cons, ih]
    rfl

omit h hn in
theorem set_fits {rs : List Elem} (hrs : ∀ a ∈ rs, a.length = f.code.limbs) (i : Nat) {x : Elem}
    (hx : x.length = f.code.limbs) : ∀ a ∈ rs.set i x, a.length = f.code.limbs := by
  intro a ha
  rcases List.mem_or_eq_of_mem_set ha with h1 | rfl
  · exact hrs a h1
  · exact hx

/-! One instruction, with an arbitrary continuation. -/

section
variable {rs : List Elem} (hrs : ∀ a ∈ rs, a.length = f.code.limbs) {β : Type}

include hrs h hn

theorem text_step (nrm : Bool) (o : Op) {K : List Val → Except Err β} {K' : List Elem → Res β}
    (hK : ∀ rs : List Elem, (∀ a ∈ rs, a.length = f.code.limbs) → K (rs.map (elem (tyId f))) = lift (K' rs)) :
    (do
      let x ← o.text P w n f (elem (tyId f) f.code.ZERO) (rs.map (elem (tyId f)))
      let x ← if nrm then txtM P w n f (id! "normalize") x else .ok x
      K (rs.map (elem (tyId f)) ++ [x])) =
    lift (do
      let x ← o.exec f w.pr rs
      let x ← if nrm then f.code.normalize w.pr x else .ok x
      K' (rs ++ [x])) := by
  obtain ⟨h1, h2⟩ := Op.text_eq h w hn o hrs
  rw [h1]
  cases hx : o.exec f w.pr rs with
  | error e => rfl
  | ok x =>
    have hs : ∀ y, y.length = f.code.limbs → ∀ a ∈ rs ++ [y], a.length = f.code.limbs := by
      intro y hy a ha
      rcases List.mem_append.mp ha with h3 | h3
      · exact hrs a h3
      · rw [List.mem_singleton.mp h3]; exact hy
    have hm : ∀ y, rs.map (elem (tyId f)) ++ [elem (tyId f) y] = (rs ++ [y]).map (elem (tyId f)) := by
      intro y; rw [List.map_append]; rfl
    have hlx := h2 x hx
    cases nrm with
    | false =>
      simp only [lift_ok, ok_bind, Bool.false_eq_true, if_false, hm]
      exact hK _ (hs x hlx)
    | true =>
      obtain ⟨h3, h4⟩ := (computes_unary h w hn hlx).2.2.2.2.2
      simp only [lift_ok, ok_bind, if_true, h3]
      cases hy : f.code.normalize w.pr x with
      | error e => rfl
      | ok y =>
        simp only [lift_ok, ok_bind, hm]
        exact hK _ (hs y (h4 y hy))

theorem text_normalize (i : Nat) {K : List Val → Except Err β} {K' : List Elem → Res β}
    (hK : ∀ rs : List Elem, (∀ a ∈ rs, a.length = f.code.limbs) → K (rs.map (elem (tyId f))) = lift (K' rs)) :
    (txtM P w n f (id! "normalize") ((rs.map (elem (tyId f))).getD i (elem (tyId f) f.code.ZERO)) >>= fun x =>
      K ((rs.map (elem (tyId f))).set i x)) =
    lift (f.code.normalize w.pr (rs.getD i f.code.ZERO) >>= fun x => K' (rs.set i x)) := by
  obtain ⟨h3, h4⟩ := (computes_unary h w hn (getD_fits hrs i)).2.2.2.2.2
  rw [getD_map, h3]
  cases hy : f.code.normalize w.pr (rs.getD i f.code.ZERO) with
  | error e => rfl
  | ok y =>
    simp only [lift_ok, ok_bind, ← List.map_set]
    exact hK _ (set_fits hrs i (h4 y hy))

theorem text_eq (i j : Nat) {K : Bool → List Val → Except Err β} {K' : Bool → List Elem → Res β}
    (hK : ∀ (b : Bool) (rs : List Elem), (∀ a ∈ rs, a.length = f.code.limbs) →
      K b (rs.map (elem (tyId f))) = lift (K' b rs)) :
    (callFn P w n (tyId f) (id! "normalize_eq") [.ref ((rs.map (elem (tyId f))).getD i (elem (tyId f) f.code.ZERO)),
        .ref ((rs.map (elem (tyId f))).getD j (elem (tyId f) f.code.ZERO))] >>= fun r =>
      seeBool r.1 >>= fun b =>
        K b (((rs.map (elem (tyId f))).set i (r.2.getD 0 .unit).strip).set j (r.2.getD 1 .unit).strip)) =
    lift (f.code.normalizeEq w.pr (rs.getD i f.code.ZERO) (rs.getD j f.code.ZERO) >>= fun r =>
      K' r.2.2 ((rs.set i r.1).set j r.2.1)) := by
  have h3 := (C54_compare h w hn (getD_fits hrs i) (getD_fits hrs j)).2
  rw [getD_map, getD_map, h3]
  cases hy : f.code.normalizeEq w.pr (rs.getD i f.code.ZERO) (rs.getD j f.code.ZERO) with
  | error e => rfl
  | ok y =>
    obtain ⟨x, y, b⟩ := y
    have hl : x.length = f.code.limbs ∧ y.length = f.code.limbs := by
      rw [FieldCode.normalizeEq] at hy
      obtain ⟨y', h5, hy⟩ := Chn.bind_eq_ok hy
      obtain ⟨r, h6, hy⟩ := Chn.bind_eq_ok hy
      have := Except.ok.inj hy
      have h7 := normalizeSelfEq_length h6
      have h8 := normalize_length h5
      grind
    show K b (((rs.map (elem (tyId f))).set i (elem (tyId f) x)).set j (elem (tyId f) y)) = _
    rw [← List.map_set, ← List.map_set]
    exact hK b _ (set_fits (set_fits hrs i hl.1) j hl.2)

theorem text_bit (i idx : Nat) {K : Bool → List Val → Except Err β} {K' : Bool → List Elem → Res β}
    (hK : ∀ (b : Bool) (rs : List Elem), (∀ a ∈ rs, a.length = f.code.limbs) →
      K b (rs.map (elem (tyId f))) = lift (K' b rs)) :
    (callFn P w n (tyId f) (id! "bit") [.ref ((rs.map (elem (tyId f))).getD i (elem (tyId f) f.code.ZERO)),
        usize idx] >>= fun r => seeBool r.1 >>= fun b =>
        K b ((rs.map (elem (tyId f))).set i (r.2.getD 0 .unit).strip)) =
    lift (f.code.bit w.pr (rs.getD i f.code.ZERO) idx >>= fun r => K' r.2 (rs.set i r.1)) := by
  have h3 := (C54_bits h w hn (getD_fits hrs i) idx).2.1
  rw [getD_map, h3]
  cases hy : f.code.bit w.pr (rs.getD i f.code.ZERO) idx with
  | error e => rfl
  | ok y =>
    obtain ⟨x, b⟩ := y
    have hl : x.length = f.code.limbs := by
      rw [FieldCode.bit] at hy
      obtain ⟨y', h5, hy⟩ := Chn.bind_eq_ok hy
      obtain ⟨r, h6, hy⟩ := Chn.bind_eq_ok hy
      have := Except.ok.inj hy
      have h8 := normalize_length h5
      grind
    show K b ((rs.map (elem (tyId f))).set i (elem (tyId f) x)) = _
    rw [← List.map_set]
    exact hK b _ (set_fits hrs i hl)

theorem text_packed (i : Nat) {K : List Int → List Val → Except Err β} {K' : List Int → List Elem → Res β}
    (hK : ∀ (b : List Int) (rs : List Elem), (∀ a ∈ rs, a.length = f.code.limbs) →
      K b (rs.map (elem (tyId f))) = lift (K' b rs)) :
    (callFn P w n (tyId f) (id! "packed") [.ref ((rs.map (elem (tyId f))).getD i (elem (tyId f) f.code.ZERO))] >>=
      fun r => seeBytes r.1 >>= fun out => K out ((rs.map (elem (tyId f))).set i (r.2.getD 0 .unit).strip)) =
    lift (f.code.packed w.pr (rs.getD i f.code.ZERO) >>= fun r => K' r.2 (rs.set i r.1)) := by
  have h3 := (C54_pack h w hn (getD_fits hrs i) []).2.2.2.2.1
  rw [getD_map, h3]
  cases hy : f.code.packed w.pr (rs.getD i f.code.ZERO) with
  | error e => rfl
  | ok y =>
    obtain ⟨x, out⟩ := y
    have hl : x.length = f.code.limbs := by
      rw [FieldCode.packed, FieldCode.pack] at hy
      obtain ⟨y', h5, hy⟩ := Chn.bind_eq_ok hy
      obtain ⟨r, h6, hy⟩ := Chn.bind_eq_ok hy
      have := Except.ok.inj hy
      have h8 := normalize_length h5
      grind
    simp only [lift_ok, ok_bind, seeBytes_bytes]
    show K out ((rs.map (elem (tyId f))).set i (elem (tyId f) x)) = _
    rw [← List.map_set]
    exact hK out _ (set_fits hrs i hl)

theorem text_hex (upper : Bool) (i : Nat) {K : List Char → Except Err β} {K' : List Char → Res β}
    (hK : ∀ s, K s = lift (K' s)) :
    (txtH P w n f upper ((rs.map (elem (tyId f))).getD i (elem (tyId f) f.code.ZERO)) >>= K) =
    lift (f.code.fmtHex w.pr upper (rs.getD i f.code.ZERO) >>= K') := by
  have h3 : txtH P w n f upper (elem (tyId f) (rs.getD i f.code.ZERO)) =
      lift (f.code.fmtHex w.pr upper (rs.getD i f.code.ZERO)) := by
    rw [txtH, show (if upper then id! "UpperHex" else id! "LowerHex") = hexTrait upper by cases upper <;> rfl,
      h.opFn (fn_hex f upper)]
    dsimp only
    rw [run_hex h w (by omega) upper (getD_fits hrs i) []]
    cases f.code.fmtHex w.pr upper (rs.getD i f.code.ZERO) <;> rfl
  rw [getD_map, h3]
  cases hy : f.code.fmtHex w.pr upper (rs.getD i f.code.ZERO) with
  | error e => rfl
  | ok s => exact hK s

end

/-- Clients: the text does what the model does. -/
theorem Client.textFrom_eq (nrm : Bool) {α : Type} (c : Client α) : ∀ {rs : List Elem},
    (∀ a ∈ rs, a.length = f.code.limbs) →
    c.textFrom P w n f nrm (elem (tyId f) f.code.ZERO) (rs.map (elem (tyId f))) = lift (c.run f w.pr nrm rs) := by
  induction c with
  | done x => intro rs _; rfl
  | step o k ih => intro rs hrs; exact text_step h w hn hrs nrm o fun _ h => ih h
  | normalize i k ih => intro rs hrs; exact text_normalize h w hn hrs i fun _ h => ih h
  | eq i j k ih => intro rs hrs; exact text_eq h w hn hrs i j fun b _ h => ih b h
  | bit i idx k ih => intro rs hrs; exact text_bit h w hn hrs i idx fun b _ h => ih b h
  | packed i k ih => intro rs hrs; exact text_packed h w hn hrs i fun b _ h => ih b h
  | hex upper i k ih => intro rs hrs; exact text_hex h w hn hrs upper i fun s => ih s hrs

/-- C59, clients: what a client gets from the text is what it gets from the model. -/
theorem C59_client_model (nrm : Bool) {α : Type} (c : Client α) :
    c.text P w n f nrm = lift (c.run f w.pr nrm []) := by
  rw [Client.text, (computes_consts h w hn).1.1]
  exact Client.textFrom_eq h w hn nrm c (rs := []) nofun

end

/-! ### C59 -/

/-- C59, C53 for the text, all types: no client whose instructions fit the type can tell the program text from
`ℤ / p`. -/
theorem C59_client (f : Fld) (w : World) {α : Type} (c : Client α) (hc : c.Uses f (Op.Fits f)) :
    c.text (src f) w 12 f false = .ok (c.ideal f []) := by
  rw [C59_client_model (has_src f) w (Nat.le_refl 12), C53_fitting_partial f w.pr c hc]
  rfl

/-- C59, C53 for the text, all types: the same for clients that the interval analysis accepts, which may use `-`. -/
theorem C59_client_analysed (f : Fld) (w : World) {α : Type} (c : Client α) (hc : c.Safe f []) :
    c.text (src f) w 12 f false = .ok (c.ideal f []) := by
  rw [C59_client_model (has_src f) w (Nat.le_refl 12), C53_analysed_partial f w.pr c hc]
  rfl

/-- C59, C53 for the text, all types: the same for clients that normalize every new element. -/
theorem C59_client_normalizing (f : Fld) (w : World) {α : Type} (c : Client α)
    (hc : c.Uses f fun o => f = .e251_9 → o.NotPow) : c.text (src f) w 12 f true = .ok (c.ideal f []) := by
  rw [C59_client_model (has_src f) w (Nat.le_refl 12), C53_normalized_partial f w.pr c hc]
  rfl

/-- C59, C08 for the text: no computation panics or is stuck, and all builds give the same words. -/
theorem C59_never_panics (f : Fld) (e : Ex) (h : e.Valid f) :
    ∃ r, (∀ w, e.text (src f) w 12 f = .ok (elem (tyId f) r)) ∧ f.Tight r := by
  obtain ⟨r, h1, h2⟩ := C08_never_panics f e h
  refine ⟨r, fun w => ?_, h2⟩
  rw [(Ex.text_eq (has_src f) w (Nat.le_refl 12) e).1, h1]
  rfl

/-- C59, C51 for the text: the same for computations with products by integers that respect the bounds. -/
theorem C59_never_panics_ints (f : Fld) (e : ExM) (ht : e.Typed f) (hg : e.Graded f) :
    ∃ r, (∀ w, e.text (src f) w 12 f = .ok (elem (tyId f) r)) ∧ f.Rep r := by
  obtain ⟨r, h1, h2⟩ := C51_never_panics_partial f e ht hg
  refine ⟨r, fun w => ?_, h2.rep⟩
  rw [(ExM.text_eq (has_src f) w (Nat.le_refl 12) e).1, h1]
  rfl

/-- C59, C52 for the text: any computation from any words gives a result in release builds, and in debug builds
the same result or an overflow panic. -/
theorem C59_any_words (f : Fld) (e : ExW) (ht : e.Typed f) :
    ∃ r, f.Words r ∧ (∀ w : World, w.pr = .release → e.text (src f) w 12 f = .ok (elem (tyId f) r)) ∧
      ∀ w : World, w.pr = .debug → e.text (src f) w 12 f = .ok (elem (tyId f) r) ∨
        e.text (src f) w 12 f = .error (.panic .overflow) := by
  have k := fun w => (ExW.text_eq (has_src f) w (Nat.le_refl 12) e ht).1
  obtain ⟨r, h1, h2, h3⟩ := C52_computation f e ht
  dsimp only at h1 h3
  refine ⟨r, h2, fun w hw => ?_, fun w hw => ?_⟩
  · rw [k, hw, h1]; rfl
  · rw [k, hw]
    rcases h3 with h3 | h3
    · left; rw [h3]; rfl
    · right; rw [h3]; rfl

/-- C59 without its exceptions: any client without `-` between elements, in any type. -/
def C59_statement : Prop := ∀ (f : Fld) (w : World) (c : Client Bool), c.Uses f Op.NotSub →
  c.text (src f) w 12 f false = .ok (c.ideal f [])

/-- The text of `Mod_e222_117` tells the client `lazyClient` that `(0 - 1i32) * 1` and `M_ONE` are different. -/
theorem C59_statement_false : ¬ C59_statement := by
  intro h
  refine C53_statement_false fun f pr c hc => ?_
  have h1 := h f ⟨pr, 0, fun _ _ => 0⟩ c hc
  rw [C59_client_model (has_src f) _ (Nat.le_refl 12)] at h1
  cases h2 : c.run f pr false [] with
  | error e => rw [h2] at h1; cases h1
  | ok b => rw [h2] at h1; exact congrArg _ (Except.ok.inj h1)

/-! ### Examples -/

/-- A loop whose number of turns depends on bits that are read, of any length. -/
example (m : Nat) (w : World) : ∃ k, (Client.step (.bytes (List.replicate 66 4)) (countClient m 0)).text
    (src .e521_1) w 12 .e521_1 false = .ok k :=
  ⟨_, C59_client .e521_1 w _ ⟨trivial, ⟨by simp [IsBytes], by decide, by decide⟩, countClient_fits _ _ _⟩⟩

/-- `(x - y) * x` by the text of any of the nine types. -/
example (f : Fld) (w : World) {x y : List Int} (hx : Op.Valid f (.bytes x)) (hy : Op.Valid f (.bytes y)) :
    (subClient x y).text (src f) w 12 f false = .ok ((subClient x y).ideal f []) :=
  C59_client_analysed f w _ (subClient_safe f hx hy)

/-- `zero() - 1i32`, in hex, by the text of `Mod_e221_3`: the digits of `2 ^ 221 - 4`. -/
example (w : World) : (Client.step .zero (.step (.subI 0 1) (.hex false 1 .done))).text (src .e221_3) w 12 .e221_3 false =
    .ok "1ffffffffffffffffffffffffffffffffffffffffffffffffffffffc".toList := by
  rw [C59_client_model (has_src _) w (Nat.le_refl 12)]
  generalize w.pr = pr
  cases pr <;> decide +kernel

/-- A computation from the largest words overflows in debug builds; the text says so. -/
example : (ExW.square (.words [2 ^ 63 - 1, 0, 0, 0, 0])).Typed .e255_19 ∧
    (ExW.square (.words [2 ^ 63 - 1, 0, 0, 0, 0])).text (src .e255_19) debugWorld 12 .e255_19 =
      .error (.panic .overflow) := by
  have ht : (ExW.square (.words [2 ^ 63 - 1, 0, 0, 0, 0])).Typed .e255_19 := Fld.words_of_wordsB (by decide)
  refine ⟨ht, ?_⟩
  rw [(ExW.text_eq (has_src _) debugWorld (Nat.le_refl 12) _ ht).1,
    show (ExW.square (.words [2 ^ 63 - 1, 0, 0, 0, 0])).exec .e255_19 debugWorld.pr = .error .overflow by decide +kernel]
  rfl

/-- `7 * (x - 1) / sqrt(y)` of unpacked `x`, `y` meets the hypotheses of `C59_never_panics_ints`. -/
example : let e := ExM.div (.mulI (.of (.subI (.bytes (List.replicate 32 5)) 1)) 7) (.of (.sqrt (.bytes (List.replicate 32 9))))
    e.Typed .e255_19 ∧ e.Graded .e255_19 := by
  refine ⟨⟨⟨⟨⟨?_, ?_⟩, ?_⟩, ?_⟩, ?_, ?_⟩, ⟨⟨⟨trivial, rfl⟩, ?_⟩, ?_⟩, trivial, rfl⟩
  all_goals first | decide | (simp [IsBytes]; done) | (norm_num [IsI32]; done)

end Verif
