import Verif.Props.Integers
import Verif.Props.RepairedClients

/-!
# C67: programs that also multiply by machine integers and negate

C64 without its exception: `small_mul` (and `* i32`, `* i16`, `* i8`, C23) and `neg` are added to the instructions.  The
result of `small_mul` is not reduced, so that the registers hold any representation; products, squares and
powers of such elements are described as long as the integers are in the ranges `Fld.tight` and `Fld.loose`.  The
machine on integers also says for which factors a debug build may panic with an overflow.
-/

namespace Verif
open Fld FieldCode Rust

/-! ### The code -/

/-- Instructions: those of `Op`, negation and the product with an `i32`. -/
inductive FOp where
  | op (o : Op)
  | neg (i : Nat)
  | mulI (i : Nat) (n : Int)

/-- Programs with these instructions that look at intermediate results as `Client` does. -/
inductive FClient (α : Type) where
  | done (x : α)
  | step (o : FOp) (k : FClient α)
  | normalize (i : Nat) (k : FClient α)
  | eq (i j : Nat) (k : Bool → FClient α)
  | bit (i idx : Nat) (k : Bool → FClient α)
  | packed (i : Nat) (k : List Int → FClient α)
  | hex (upper : Bool) (i : Nat) (k : List Char → FClient α)

section
variable (f : Fld) (pr : Profile)

/-- Run an instruction. -/
def FOp.exec (rs : List Elem) : FOp → Res Elem
  | op o => o.exec f pr rs
  | neg i => f.code.neg pr (rs.getD i f.code.ZERO)
  | mulI i n => f.code.smallMul pr (rs.getD i f.code.ZERO) n

/-- Run a program. -/
def FClient.run {α : Type} : FClient α → List Elem → Res α
  | done x, _ => .ok x
  | step o k, rs => do k.run (rs ++ [← o.exec f pr rs])
  | normalize i k, rs => do k.run (rs.set i (← f.code.normalize pr (rs.getD i f.code.ZERO)))
  | eq i j k, rs => do
    let r ← f.code.normalizeEq pr (rs.getD i f.code.ZERO) (rs.getD j f.code.ZERO)
    (k r.2.2).run ((rs.set i r.1).set j r.2.1)
  | bit i idx k, rs => do
    let r ← f.code.bit pr (rs.getD i f.code.ZERO) idx
    (k r.2).run (rs.set i r.1)
  | packed i k, rs => do
    let r ← f.code.packed pr (rs.getD i f.code.ZERO)
    (k r.2).run (rs.set i r.1)
  | hex upper i k, rs => do
    (k (← f.code.fmtHex pr upper (rs.getD i f.code.ZERO))).run rs

end

/-! ### In `ℤ / p` -/

section
variable (f : Fld)

/-- The same instruction in `ℤ / p`. -/
noncomputable def FOp.ideal (ds : List (ZMod f.pN)) : FOp → ZMod f.pN
  | op o => o.ideal f ds
  | neg i => -ds.getD i 0
  | mulI i n => ds.getD i 0 * n

/-- What the program gets when every element is a residue class. -/
noncomputable def FClient.ideal {α : Type} : FClient α → List (ZMod f.pN) → α
  | done x, _ => x
  | step o k, ds => k.ideal (ds ++ [o.ideal f ds])
  | normalize _ k, ds => k.ideal ds
  | eq i j k, ds => (k (decide (ds.getD i 0 = ds.getD j 0))).ideal ds
  | bit i idx k, ds => (k ((ds.getD i 0).val.testBit idx)).ideal ds
  | packed i k, ds => (k (leBytes f.nbytes (ds.getD i 0).val)).ideal ds
  | hex upper i k, ds => (k (hexDigits upper f.nbytes (ds.getD i 0).val)).ideal ds

/-! ### The machine on integers -/

/-- Values of the representations that the operations other than `small_mul` return. -/
def Fld.tight (x : Int) : Bool :=
  decide (2 ^ (f.L * (f.k - 1)) * (-2 ^ f.tb - 1) ≤ x ∧ x < 2 ^ (f.L * (f.k - 1)) * (2 ^ (f.tb + 1) + f.c + 1))

/-- Values of the representations that may be multiplied. -/
def Fld.loose (x : Int) : Bool :=
  decide (2 ^ (f.L * (f.k - 1)) * -2 ^ (f.tb + 4) ≤ x ∧ x < 2 ^ (f.L * (f.k - 1)) * (2 ^ (f.tb + 4) + 1))

/-- `small_mul` on integers, before the topmost word is cut to 64 bits: the carry is multiplied with `c` but left in the
topmost word, and `Mod_e521_1` has three wrong carries. -/
def Fld.mulPre (x n : Int) : Int :=
  let q := x / 2 ^ f.n
  if f = .e521_1 then
    let c5 := mulCarry x n q 5
    let c6 := mulCarry x n q 6
    let e7 := q + 2 ^ 378 * (c5 - c6)
    let c7 := mulCarry x n e7 7
    let e8 := e7 + 2 ^ 432 * (c6 - c7)
    let c8 := mulCarry x n e8 8
    x * n + e8 + 2 ^ 486 * (c7 - c8)
  else x * n + f.c * q

/-- `small_mul` on integers. -/
def Fld.mulInt (x n : Int) : Int :=
  f.mulPre x n - 2 ^ (f.L * (f.k - 1) + 64) * f.wraps (f.mulPre x n)

/-- `small_mul` does not overflow: the factor is small, or there is no carry and nothing is cut off. -/
def Fld.mulSure (x n : Int) : Bool :=
  decide (-2 ^ f.mulE ≤ n ∧ n ≤ 2 ^ f.mulE) ||
    decide ((0 ≤ x ∧ x < 2 ^ f.n) ∧ f.wraps (f.mulPre x n) = 0)

/-- What the machine on integers says of a run: its result, and whether debug builds have it for sure; that all builds panic; or
that an operand is outside the ranges. -/
inductive Verdict (α : Type) where
  | gives (sure : Bool) (x : α)
  | panics
  | beyond
  deriving DecidableEq

/-- Continue with the result. -/
def Verdict.andThen {α β : Type} : Verdict α → (α → Verdict β) → Verdict β
  | gives s x, g => match g x with
    | gives s' y => gives (s && s') y
    | panics => panics
    | beyond => beyond
  | panics, _ => panics
  | beyond, _ => beyond

/-- The operands are in range. -/
def Op.ready (xs : List Int) (o : Op) : Bool :=
  let x := fun i => xs.getD i 0
  match o with
  | mul i j => f.loose (x i) && f.loose (x j)
  | div i j => f.loose (x i) && f.tight (x j)
  | square i => f.loose (x i)
  | invert i | legendre i | sqrt i => f.tight (x i)
  | _ => true

/-- An instruction on integers. -/
def FOp.int (xs : List Int) : FOp → Verdict Int
  | op o => if o.ready f xs then (match o.int f xs with
      | some x => .gives true x
      | none => .panics) else .beyond
  | neg i => .gives true (f.plus (xs.getD i 0) f.p)
  | mulI i n => if f.tight (xs.getD i 0) then .gives (f.mulSure (xs.getD i 0) n) (f.mulInt (xs.getD i 0) n) else .beyond

/-- A program on integers. -/
def FClient.int {α : Type} : FClient α → List Int → Verdict α
  | done x, _ => .gives true x
  | step o k, xs => (o.int f xs).andThen fun x => k.int (xs ++ [x])
  | normalize i k, xs => k.int (xs.set i (f.normVal (xs.getD i 0)))
  | eq i j k, xs =>
    let x := f.normVal (xs.getD i 0)
    let y := f.normVal (xs.getD j 0)
    (k (decide (x = y))).int ((xs.set i x).set j y)
  | bit i idx k, xs =>
    let x := f.normVal (xs.getD i 0)
    if idx < f.L * f.k then (k (decide (x / 2 ^ idx % 2 = 1))).int (xs.set i x) else .panics
  | packed i k, xs =>
    let x := f.normVal (xs.getD i 0)
    (k (leBytes f.nbytes (x % 2 ^ f.ubits).toNat)).int (xs.set i x)
  | hex upper i k, xs =>
    (k (hexDigits upper f.nbytes (f.normVal (xs.getD i 0) % 2 ^ f.ubits).toNat)).int xs

/-- The arguments have the Rust types. -/
def FOp.Args : FOp → Prop
  | op o => o.Args
  | neg _ => True
  | mulI _ n => IsI32 n

/-- All arguments of the instructions the program can come to have the Rust types. -/
def FClient.Args {α : Type} : FClient α → Prop
  | done _ => True
  | step o k => o.Args ∧ k.Args
  | normalize _ k => k.Args
  | eq _ _ k => ∀ b, (k b).Args
  | bit _ _ k => ∀ b, (k b).Args
  | packed _ k => ∀ out, out.length = f.nbytes → IsBytes out → (k out).Args
  | hex _ _ k => ∀ s, (k s).Args

end

/-- The runs of the two builds are as described: both give the result unless it is not sure that debug builds do, which then may panic with an
overflow; or both panic. -/
def Verdict.Of {α : Type} (g : Profile → Res α) : Verdict α → Prop
  | gives sure x => g .release = .ok x ∧ (g .debug = .ok x ∨ sure = false ∧ g .debug = .error .overflow)
  | panics => ∀ pr, ∃ e, g pr = .error e
  | beyond => True

/-- A program of C64 as one of these. -/
def Client.full {α : Type} : Client α → FClient α
  | done x => .done x
  | step o k => .step (.op o) k.full
  | normalize i k => .normalize i k.full
  | eq i j k => .eq i j fun b => (k b).full
  | bit i idx k => .bit i idx fun b => (k b).full
  | packed i k => .packed i fun out => (k out).full
  | hex upper i k => .hex upper i fun s => (k s).full

/-! ### The text -/

section
variable (P : Program) (w : World) (n : Nat) (f : Fld)

/-- An instruction, by calling the functions of the text. -/
def FOp.text (z : Val) (rs : List Val) : FOp → Except Err Val
  | op o => o.text P w n f z rs
  | neg i => txtN P w n f (rs.getD i z)
  | mulI i k => txtI P w n f (id! "small_mul") k (rs.getD i z)

/-- Run a program by calling the functions of the text. -/
def FClient.textFrom (z : Val) {α : Type} : FClient α → List Val → Except Err α
  | done x, _ => .ok x
  | step o k, rs => do k.textFrom z (rs ++ [← o.text P w n f z rs])
  | normalize i k, rs => do
    k.textFrom z (rs.set i (← txtM P w n f (id! "normalize") (rs.getD i z)))
  | eq i j k, rs => do
    let r ← callFn P w n (tyId f) (id! "normalize_eq") [.ref (rs.getD i z), .ref (rs.getD j z)]
    let b ← seeBool r.1
    (k b).textFrom z ((rs.set i (r.2.getD 0 .unit).strip).set j (r.2.getD 1 .unit).strip)
  | bit i idx k, rs => do
    let r ← callFn P w n (tyId f) (id! "bit") [.ref (rs.getD i z), usize idx]
    let b ← seeBool r.1
    (k b).textFrom z (rs.set i (r.2.getD 0 .unit).strip)
  | packed i k, rs => do
    let r ← callFn P w n (tyId f) (id! "packed") [.ref (rs.getD i z)]
    let out ← seeBytes r.1
    (k out).textFrom z (rs.set i (r.2.getD 0 .unit).strip)
  | hex upper i k, rs => do
    let s ← txtH P w n f upper (rs.getD i z)
    (k s).textFrom z rs

/-- Run a program from the start. -/
def FClient.text {α : Type} (c : FClient α) : Except Err α := do
  c.textFrom P w n f (← txt0 P w n f (id! "zero")) []

end

/-! ### Proofs -/

section
variable {f : Fld}

theorem tight_iff {a : Elem} (ha : f.Rep a) : f.tight (f.V a) = true ↔ f.Tight a := by
  rw [Fld.tight, decide_eq_true_eq]
  exact ⟨fun h => Shape.of_V ha h.1 h.2, fun h => ⟨h.lo_le, h.lt_hi⟩⟩

theorem loose_iff {a : Elem} (ha : f.Rep a) : f.loose (f.V a) = true ↔ f.Loose a := by
  rw [Fld.loose, decide_eq_true_eq]
  exact ⟨fun h => Shape.of_V ha h.1 h.2, fun h => ⟨h.lo_le, h.lt_hi⟩⟩

theorem getD_rep {rs : List Elem} (hrs : ∀ a ∈ rs, f.Rep a) (i : Nat) :
    f.Rep (rs.getD i f.code.ZERO) := getD_mem hrs i (zero_canon f).tight.rep

/-- `small_mul` for every `i32`: the value in release builds, what debug builds do, and when they give the same. -/
theorem smallMul_int {a : Elem} {n : Int} (ha : f.Tight a) (hn : IsI32 n) :
    ∃ r, f.code.smallMul .release a n = .ok r ∧ f.Rep r ∧ f.V r = f.mulInt (f.V a) n ∧
      (f.code.smallMul .debug a n = .ok r ∨ f.code.smallMul .debug a n = .error .overflow) ∧
      (f.mulSure (f.V a) n = true → f.code.smallMul .debug a n = .ok r) := by
  have hb : -2 ^ 31 ≤ n ∧ n ≤ 2 ^ 31 := ⟨hn.1, hn.2.le⟩
  have near : ∀ r, f.code.smallMul .release a n = .ok r → (-2 ^ f.mulE ≤ n ∧ n ≤ 2 ^ f.mulE) →
      f.code.smallMul .debug a n = .ok r := by
    intro r h1 h2
    obtain ⟨s, h3, -⟩ := smallMul_near f .debug ha h2
    have h4 : f.code.smallMul .release a n = .ok s := runLimb_mono _ _ h3
    obtain rfl := Except.ok.inj (h1.symm.trans h4)
    exact h3
  have sure : ∀ r, f.code.smallMul .release a n = .ok r →
      ((0 ≤ f.V a ∧ f.V a < 2 ^ f.n) → f.TopFits (f.mulPre (f.V a) n) → f.code.smallMul .debug a n = .ok r) →
      f.mulSure (f.V a) n = true → f.code.smallMul .debug a n = .ok r := by
    intro r h1 h2 h3
    rw [Fld.mulSure, Bool.or_eq_true, decide_eq_true_eq, decide_eq_true_eq] at h3
    rcases h3 with h3 | ⟨h3, h4⟩
    · exact near r h1 h3
    · exact h2 h3 (wraps_zero.1 h4)
  by_cases hf : f = .e521_1
  · subst hf
    obtain ⟨r, U, c5, c6, c7, c8, h1, h2, h3, h4, hdbg, -, -, -, -, h5, rfl, rfl, rfl, rfl⟩ :=
      smallMul521_wrap ha hb
    have e : Fld.e521_1.mulPre (Fld.e521_1.V a) n = U := by
      rw [h5, Fld.mulPre, if_pos rfl, show Fld.e521_1.n = 521 from rfl]
      dsimp only
      ring
    refine ⟨r, h1, h3, ?_, h2, sure r h1 fun h6 h7 => ?_⟩
    · rw [Fld.mulInt, e]; exact h4
    · rw [e] at h7
      exact hdbg h6 h7.1 h7.2
  · have e : f.mulPre (f.V a) n = f.V a * n + f.c * (f.V a / 2 ^ f.n) := by
      rw [Fld.mulPre]; dsimp only; rw [if_neg hf]
    rcases split_or f hf with hs | ⟨-, he, -⟩
    · obtain ⟨r, h1, h2, h3, h4, h5⟩ := smallMul_wrap hs hf ha hb e
      exact ⟨r, h1, h3, h4, h2, sure r h1 fun h6 h7 => h5 h6 h7.1 h7.2⟩
    · obtain ⟨r, h1, h2, h3⟩ := smallMul_tight hf .debug ha (b := n) (by rw [he]; exact hb)
      refine ⟨r, runLimb_mono _ _ h1, h2, ?_, .inl h1, fun _ => h1⟩
      have hw : f.wraps (f.mulPre (f.V a) n) = 0 := by
        rw [wraps_zero, e, ← h3, TopFits]
        have h4 := h2.lo_le
        have h5 := h2.lt_hi
        rw [pow_add]
        constructor <;> linarith
      rw [Fld.mulInt, hw, mul_zero, sub_zero, e, h3]

/-- An instruction of C64 on any representations. -/
theorem Op.int_rep {pr : Profile} {rs : List Elem} (hrs : ∀ a ∈ rs, f.Rep a) {o : Op} (ho : o.Args)
    (hr : o.ready f (rs.map f.V) = true) :
    match o.int f (rs.map f.V) with
    | some v => ∃ a, o.exec f pr rs = .ok a ∧ f.Rep a ∧ f.V a = v
    | none => ∃ e, o.exec f pr rs = .error e := by
  have t := getD_rep hrs
  have weak : ∀ {x : Res Elem} {v : Int}, (∃ a, x = .ok a ∧ f.Tight a ∧ f.V a = v) →
      ∃ a, x = .ok a ∧ f.Rep a ∧ f.V a = v := fun ⟨a, h1, h2, h3⟩ => ⟨a, h1, h2.rep, h3⟩
  have nil := Op.int_sound (f := f) (pr := pr) (rs := []) nofun ho
  cases o with
  | zero => exact weak nil
  | one => exact weak nil
  | mOne => exact weak nil
  | modulus => exact weak nil
  | rand rng => exact weak nil
  | bytes bs =>
    have e : Op.int f (rs.map f.V) (.bytes bs) = Op.int f ([].map f.V) (.bytes bs) := rfl
    rw [e]
    cases h : Op.int f ([].map f.V) (.bytes bs) with
    | some v => rw [h] at nil; exact weak nil
    | none => rw [h] at nil; exact nil
  | add i j =>
    simp only [Op.int, getD_int]
    obtain ⟨r, h1, h2, -⟩ := C01_add f pr (t i) (t j)
    obtain ⟨s, h3, -, h4⟩ := add_exact pr (t i) (t j)
    cases Except.ok.inj (h1.symm.trans h3)
    exact ⟨r, h1, h2.rep, by rw [h4, plus]; ring⟩
  | sub i j =>
    simp only [Op.int, getD_int]
    obtain ⟨r, h1, h2, -⟩ := C02_sub_correct_iff f pr (t i) (t j)
    obtain ⟨s, h3, -, h4⟩ := sub_exact pr (t i) (t j)
    cases Except.ok.inj (h1.symm.trans h3)
    exact ⟨r, h1, h2.rep, h4⟩
  | mul i j =>
    simp only [Op.ready, getD_int, Bool.and_eq_true, loose_iff (t _)] at hr
    simp only [Op.int, getD_int]
    obtain ⟨r, h1, h2, h3⟩ := mul_value pr hr.1 hr.2
    exact ⟨r, h1, h2.rep, h3⟩
  | div i j =>
    simp only [Op.ready, getD_int, Bool.and_eq_true, loose_iff (t _), tight_iff (t _)] at hr
    simp only [Op.int, getD_int]
    obtain ⟨v, h1, h2⟩ := invert_tight f pr hr.2
    obtain ⟨r, h3, h4, h5⟩ := mul_value pr hr.1 h2.loose
    refine ⟨r, ?_, h4.rep, ?_⟩
    · simp only [Op.exec, FieldCode.div, divAssign, h1, bind, Except.bind]
      exact h3
    · rw [h5, (run_int noQuartic_follows hr.2 h1).2]; rfl
  | addI i n =>
    simp only [Op.int, getD_int]
    obtain ⟨r, h1, h2, -⟩ := C06_small_add f pr (t i) ho
    obtain ⟨s, h3, -, h4⟩ := smallAdd_exact pr (t i) ho
    cases Except.ok.inj (h1.symm.trans h3)
    exact ⟨r, h1, h2.rep, h4⟩
  | subI i n =>
    simp only [Op.int, getD_int]
    obtain ⟨r, h1, h2, -⟩ := C06_small_sub f pr (t i) ho
    obtain ⟨s, h3, -, h4⟩ := smallSub_exact pr (t i) ho
    cases Except.ok.inj (h1.symm.trans h3)
    exact ⟨r, h1, h2.rep, h4⟩
  | square i =>
    simp only [Op.ready, getD_int, loose_iff (t _)] at hr
    simp only [Op.int, getD_int]
    obtain ⟨r, h1, h2, h3⟩ := square_value pr hr
    exact ⟨r, h1, h2.rep, h3⟩
  | invert i =>
    simp only [Op.ready, getD_int, tight_iff (t _)] at hr
    simp only [Op.int, getD_int]
    obtain ⟨r, h1, -⟩ := invert_tight f pr hr
    exact weak ⟨r, h1, run_int noQuartic_follows hr h1⟩
  | legendre i =>
    simp only [Op.ready, getD_int, tight_iff (t _)] at hr
    simp only [Op.int, getD_int]
    obtain ⟨r, h1, -⟩ := legendre_tight f pr hr
    exact weak ⟨r, h1, run_int noQuartic_follows hr h1⟩
  | sqrt i =>
    simp only [Op.ready, getD_int, tight_iff (t _)] at hr
    simp only [Op.int, getD_int]
    obtain ⟨r, h1, -⟩ := sqrt_tight f pr hr
    exact weak ⟨r, h1, run_int quartic_follows hr h1⟩
  | select b i j =>
    simp only [Op.int, getD_int, Op.exec, C21_select f b (t i).isWords (t j).isWords]
    cases b
    · exact ⟨_, rfl, t j, rfl⟩
    · exact ⟨_, rfl, t i, rfl⟩

/-- An instruction does on words what it does on integers. -/
theorem FOp.int_sound {rs : List Elem} (hrs : ∀ a ∈ rs, f.Rep a) {o : FOp} (ho : o.Args) :
    match o.int f (rs.map f.V) with
    | .gives s v => ∃ a, o.exec f .release rs = .ok a ∧
        (o.exec f .debug rs = .ok a ∨ s = false ∧ o.exec f .debug rs = .error .overflow) ∧ f.Rep a ∧ f.V a = v
    | .panics => ∀ pr, ∃ e, o.exec f pr rs = .error e
    | .beyond => True := by
  have t := getD_rep hrs
  cases o with
  | op o =>
    simp only [FOp.int]
    by_cases hr : o.ready f (rs.map f.V) = true
    · rw [if_pos hr]
      have hd := Op.int_rep (pr := .debug) hrs ho hr
      have hl := Op.int_rep (pr := .release) hrs ho hr
      cases hx : o.int f (rs.map f.V) with
      | some v =>
        rw [hx] at hd hl
        obtain ⟨a, h1, h2, h3⟩ := hd
        obtain ⟨b, h4, h5, h6⟩ := hl
        obtain rfl : a = b := Shape.ext h2 h5 (h3.trans h6.symm)
        exact ⟨a, h4, .inl h1, h2, h3⟩
      | none =>
        rw [hx] at hd hl
        intro pr
        cases pr
        · exact hd
        · exact hl
    · rw [if_neg hr]; trivial
  | neg i =>
    simp only [FOp.int, getD_int]
    have hm : f.Rep f.code.MODULUS := Tight.rep (word_tight (modulus_shape f))
    obtain ⟨r, h1, h2, -⟩ := C01_add f .debug (t i) hm
    obtain ⟨s, h3, -, h4⟩ := add_exact .debug (t i) hm
    cases Except.ok.inj (h1.symm.trans h3)
    refine ⟨r, runLimb_mono _ _ h1, .inl h1, h2.rep, ?_⟩
    rw [h4, plus, modulus_V]; ring
  | mulI i n =>
    simp only [FOp.int, getD_int]
    by_cases hr : f.tight (f.V (rs.getD i f.code.ZERO)) = true
    · rw [if_pos hr]
      obtain ⟨r, h1, h2, h3, h4, h5⟩ := smallMul_int ((tight_iff (t i)).1 hr) ho
      refine ⟨r, h1, ?_, h2, h3⟩
      cases hs : f.mulSure (f.V (rs.getD i f.code.ZERO)) n with
      | true => exact .inl (h5 hs)
      | false => exact h4.imp id fun h => ⟨rfl, h⟩
    · rw [if_neg hr]; trivial

theorem FClient.int_sound {α : Type} (c : FClient α) : ∀ {rs : List Elem}, c.Args f →
    (∀ a ∈ rs, f.Rep a) → (c.int f (rs.map f.V)).Of fun pr => c.run f pr rs := by
  induction c with
  | done x => intro rs _ _; exact ⟨rfl, .inl rfl⟩
  | step o k ih =>
    intro rs hu h
    have h1 := FOp.int_sound h hu.1
    simp only [FClient.int, FClient.run]
    cases ho : o.int f (rs.map f.V) with
    | beyond => trivial
    | panics =>
      rw [ho] at h1
      intro pr
      obtain ⟨e, h1⟩ := h1 pr
      exact ⟨e, by simp only [h1]; rfl⟩
    | gives s v =>
      rw [ho] at h1
      obtain ⟨a, h1, h2, h3, h4⟩ := h1
      have h5 := ih hu.2 (rs := rs ++ [a]) (by
        intro b hb
        rcases List.mem_append.1 hb with hb | hb
        · exact h b hb
        · rw [List.mem_singleton.1 hb]; exact h3)
      rw [List.map_append, List.map_singleton, h4] at h5
      simp only [Verdict.andThen]
      cases hk : k.int f (rs.map f.V ++ [v]) with
      | beyond => trivial
      | panics =>
        rw [hk] at h5
        intro pr
        cases pr with
        | release =>
          obtain ⟨e, h5⟩ := h5 .release
          exact ⟨e, by simp only [h1]; exact h5⟩
        | debug =>
          rcases h2 with h2 | ⟨-, h2⟩
          · obtain ⟨e, h5⟩ := h5 .debug
            exact ⟨e, by simp only [h2]; exact h5⟩
          · exact ⟨_, by simp only [h2]; rfl⟩
      | gives s' y =>
        rw [hk] at h5
        refine ⟨by simp only [h1]; exact h5.1, ?_⟩
        rcases h2 with h2 | ⟨rfl, h2⟩
        · rcases h5.2 with h6 | ⟨rfl, h6⟩
          · exact .inl (by simp only [h2]; exact h6)
          · exact .inr ⟨Bool.and_false s, by simp only [h2]; exact h6⟩
        · exact .inr ⟨rfl, by simp only [h2]; rfl⟩
  | normalize i k ih =>
    intro rs hu h
    have t := getD_rep h i
    obtain ⟨r, h1, h2, h3⟩ := C09_normalize_value f .debug t
    have h1' : ∀ pr, f.code.normalize pr (rs.getD i f.code.ZERO) = .ok r := fun pr => normalize_mono _ pr h1
    simp only [FClient.int, FClient.run, getD_int, h1', ← h3, map_set_int]
    exact ih hu (set_mem h i h2.rep)
  | eq i j k ih =>
    intro rs hu h
    have ti := getD_rep h i
    have tj := getD_rep h j
    obtain ⟨x, h1, h2, h3⟩ := C09_normalize_value f .debug ti
    obtain ⟨y, h4, h5, h6⟩ := C09_normalize_value f .debug tj
    obtain ⟨x', y', b, h7, h8⟩ := C10_normalize_eq_exact f .debug ti tj
    have h1' : ∀ pr, f.code.normalize pr (rs.getD i f.code.ZERO) = .ok x := fun pr => normalize_mono _ pr h1
    have h4' : ∀ pr, f.code.normalize pr (rs.getD j f.code.ZERO) = .ok y := fun pr => normalize_mono _ pr h4
    have h9 := h7
    simp only [FieldCode.normalizeEq, FieldCode.normalizeSelfEq, h1, h4, bind, Except.bind, pure,
      Except.pure] at h9
    obtain ⟨rfl, h10⟩ := Prod.mk.inj (Except.ok.inj h9)
    obtain ⟨rfl, -⟩ := Prod.mk.inj h10
    have h7' : ∀ pr, f.code.normalizeEq pr (rs.getD i f.code.ZERO) (rs.getD j f.code.ZERO) = .ok (x, y, b) := by
      intro pr
      rw [← h7]
      simp only [FieldCode.normalizeEq, FieldCode.normalizeSelfEq, h1', h4', bind, Except.bind]
    have hb : b = decide (f.normVal (f.V (rs.getD i f.code.ZERO)) =
        f.normVal (f.V (rs.getD j f.code.ZERO))) := by
      rw [Bool.eq_iff_iff, h8, decide_eq_true_eq]
    simp only [FClient.int, FClient.run, h7', getD_int]
    rw [← hb, ← h3, ← h6, map_set_int, map_set_int]
    exact ih b (hu b) (set_mem (set_mem h i h2.rep) j h5.rep)
  | bit i idx k ih =>
    intro rs hu h
    have t := getD_rep h i
    obtain ⟨x, h1, h2, h3⟩ := C09_normalize_value f .debug t
    have h1' : ∀ pr, f.code.normalize pr (rs.getD i f.code.ZERO) = .ok x := fun pr => normalize_mono _ pr h1
    simp only [FClient.int, FClient.run, getD_int]
    by_cases hi : idx < f.L * f.k
    · rw [if_pos hi]
      obtain ⟨x', h4⟩ := C20_bit_exact f .debug t hi
      have h5 := h4
      rw [FieldCode.bit, h1] at h5
      simp only [ok_bind] at h5
      obtain ⟨b, -, h6⟩ := Chn.bind_eq_ok h5
      obtain ⟨rfl, -⟩ := Prod.mk.inj (Except.ok.inj h6)
      have h4' : ∀ pr, f.code.bit pr (rs.getD i f.code.ZERO) idx = _ := fun pr =>
        Eq.trans (by simp only [FieldCode.bit, h1']) h4
      simp only [h4']
      rw [← h3, map_set_int]
      exact ih _ (hu _) (set_mem h i h2.rep)
    · rw [if_neg hi]
      have hL : 0 < f.L := by cases f <;> decide
      have hl : x.length ≤ idx / f.L := by
        rw [Shape.length h2, Nat.le_div_iff_mul_le hL, mul_comm]
        omega
      intro pr
      refine ⟨.index, ?_⟩
      simp only [FieldCode.bit, h1', FieldCode.bitNormalized, limbBits_eq, List.getElem?_eq_none hl, bind,
        Except.bind]
  | packed i k ih =>
    intro rs hu h
    have t := getD_rep h i
    obtain ⟨x, h1, h2, h3⟩ := C09_normalize_value f .debug t
    obtain ⟨x', out, h4, h5, h6, h7, h8⟩ := packed_value f .debug t
    obtain rfl := Except.ok.inj (h1.symm.trans h5)
    have h4' : ∀ pr, f.code.packed pr (rs.getD i f.code.ZERO) = .ok (x, out) := by
      intro pr
      obtain ⟨x'', out', k4, k5, k6, k7, k8⟩ := packed_value f pr t
      obtain rfl := Except.ok.inj ((normalize_mono _ pr h1).symm.trans k5)
      rw [k4, eq_leBytes (out := out') k7 (v := (f.normVal (f.V (rs.getD i f.code.ZERO)) % 2 ^ f.ubits).toNat) (by
        rw [k8]; exact (Int.toNat_of_nonneg (Int.emod_nonneg _ (by positivity))).symm), k6,
        eq_leBytes (out := out) h7 (v := (f.normVal (f.V (rs.getD i f.code.ZERO)) % 2 ^ f.ubits).toNat) (by
        rw [h8]; exact (Int.toNat_of_nonneg (Int.emod_nonneg _ (by positivity))).symm), h6]
    simp only [FClient.int, FClient.run, h4', getD_int]
    have e := eq_leBytes h7 (v := (f.normVal (f.V (rs.getD i f.code.ZERO)) % 2 ^ f.ubits).toNat) (by
      rw [h8]; exact (Int.toNat_of_nonneg (Int.emod_nonneg _ (by positivity))).symm)
    rw [h6] at e
    rw [← e, ← h3, map_set_int]
    exact ih out (hu out h6 h7) (set_mem h i h2.rep)
  | hex upper i k ih =>
    intro rs hu h
    have t := getD_rep h i
    have hs : ∀ pr, f.code.fmtHex pr upper (rs.getD i f.code.ZERO) =
        .ok (hexDigits upper f.nbytes (f.normVal (f.V (rs.getD i f.code.ZERO)) % 2 ^ f.ubits).toNat) := by
      intro pr
      obtain ⟨x', out, h4, h5, h6, h7, h8⟩ := packed_value f pr t
      have e := eq_leBytes h7 (v := (f.normVal (f.V (rs.getD i f.code.ZERO)) % 2 ^ f.ubits).toNat) (by
        rw [h8]; exact (Int.toNat_of_nonneg (Int.emod_nonneg _ (by positivity))).symm)
      rw [h6] at e
      rw [FieldCode.fmtHex, h4, ← hex_leBytes, ← e]
      rfl
    simp only [FClient.int, FClient.run, hs, getD_int]
    exact ih _ (hu _) h

/-! The text. -/

section
variable {P : Program} (h : Has P f) (w : World) {n : Nat} (hn : 12 ≤ n)
include h hn

theorem FOp.text_eq (o : FOp) {rs : List Elem} (hrs : ∀ a ∈ rs, a.length = f.code.limbs) :
    Computes f (o.text P w n f (elem (tyId f) f.code.ZERO) (rs.map (elem (tyId f)))) (o.exec f w.pr rs) := by
  cases o <;> simp only [FOp.text, FOp.exec, getD_map]
  case op o => exact Op.text_eq h w hn o hrs
  case neg i => exact (computes_unary h w hn (getD_fits hrs i)).2.2.2.2.1
  case mulI i k => exact (computes_int h w hn (getD_fits hrs i) k).2.2

theorem FClient.textFrom_eq {α : Type} (c : FClient α) : ∀ {rs : List Elem},
    (∀ a ∈ rs, a.length = f.code.limbs) →
    c.textFrom P w n f (elem (tyId f) f.code.ZERO) (rs.map (elem (tyId f))) = lift (c.run f w.pr rs) := by
  induction c with
  | done x => intro rs _; rfl
  | step o k ih =>
    intro rs hrs
    obtain ⟨h1, h2⟩ := FOp.text_eq h w hn o hrs
    rw [FClient.textFrom, FClient.run, h1]
    cases hx : o.exec f w.pr rs with
    | error e => rfl
    | ok x =>
      have e : rs.map (elem (tyId f)) ++ [elem (tyId f) x] = (rs ++ [x]).map (elem (tyId f)) := by
        rw [List.map_append]; rfl
      simp only [lift_ok, ok_bind, e]
      refine ih fun a ha => ?_
      rcases List.mem_append.mp ha with h3 | h3
      · exact hrs a h3
      · rw [List.mem_singleton.mp h3]; exact h2 x hx
  | normalize i k ih => intro rs hrs; exact text_normalize h w hn hrs i fun _ h => ih h
  | eq i j k ih => intro rs hrs; exact Verif.text_eq h w hn hrs i j fun b _ h => ih b h
  | bit i idx k ih => intro rs hrs; exact text_bit h w hn hrs i idx fun b _ h => ih b h
  | packed i k ih => intro rs hrs; exact text_packed h w hn hrs i fun b _ h => ih b h
  | hex upper i k ih => intro rs hrs; exact text_hex h w hn hrs upper i fun s => ih s hrs

theorem FClient.text_eq {α : Type} (c : FClient α) : c.text P w n f = lift (c.run f w.pr []) := by
  rw [FClient.text, (computes_consts h w hn).1.1]
  exact FClient.textFrom_eq h w hn c (rs := []) nofun

end

/-! Programs of C64. -/

theorem Op.ready_tight {rs : List Elem} (hrs : ∀ a ∈ rs, f.Tight a) (o : Op) : o.ready f (rs.map f.V) = true := by
  have t := fun i => (tight_iff (getD_tight hrs i).rep).2 (getD_tight hrs i)
  have l := fun i => (loose_iff (getD_tight hrs i).rep).2 (getD_tight hrs i).loose
  cases o <;> simp only [Op.ready, getD_int, t, l, Bool.and_self]

theorem Client.full_int {α : Type} (c : Client α) : ∀ {rs : List Elem}, c.Args f → (∀ a ∈ rs, f.Tight a) →
    c.full.int f (rs.map f.V) = match c.int f (rs.map f.V) with
      | some x => .gives true x
      | none => .panics := by
  induction c with
  | done x => intro rs _ _; rfl
  | step o k ih =>
    intro rs hu h
    have h1 := Op.int_sound (pr := .debug) h hu.1
    simp only [Client.full, FClient.int, FOp.int, Op.ready_tight h, if_true, Client.int]
    cases ho : o.int f (rs.map f.V) with
    | none => rfl
    | some v =>
      rw [ho] at h1
      obtain ⟨a, -, h3, rfl⟩ := h1
      have h5 := ih hu.2 (rs := rs ++ [a]) (by
        intro b hb
        rcases List.mem_append.1 hb with hb | hb
        · exact h b hb
        · rw [List.mem_singleton.1 hb]; exact h3)
      rw [List.map_append, List.map_singleton] at h5
      simp only [Verdict.andThen, Option.bind_eq_bind, Option.bind_some, h5]
      cases k.int f (rs.map f.V ++ [f.V a]) <;> rfl
  | normalize i k ih =>
    intro rs hu h
    obtain ⟨r, h1, h2, h3⟩ := C09_normalize_value f .debug (getD_tight h i).rep
    simp only [Client.full, FClient.int, Client.int, getD_int, ← h3, map_set_int]
    exact ih hu (set_mem h i h2)
  | eq i j k ih =>
    intro rs hu h
    obtain ⟨x, h1, h2, h3⟩ := C09_normalize_value f .debug (getD_tight h i).rep
    obtain ⟨y, h4, h5, h6⟩ := C09_normalize_value f .debug (getD_tight h j).rep
    simp only [Client.full, FClient.int, Client.int, getD_int, ← h3, ← h6, map_set_int]
    exact ih _ (hu _) (set_mem (set_mem h i h2) j h5)
  | bit i idx k ih =>
    intro rs hu h
    obtain ⟨x, h1, h2, h3⟩ := C09_normalize_value f .debug (getD_tight h i).rep
    simp only [Client.full, FClient.int, Client.int, getD_int, ← h3, map_set_int]
    split
    · exact ih _ (hu _) (set_mem h i h2)
    · rfl
  | packed i k ih =>
    intro rs hu h
    obtain ⟨x, h1, h2, h3⟩ := C09_normalize_value f .debug (getD_tight h i).rep
    simp only [Client.full, FClient.int, Client.int, getD_int, ← h3, map_set_int]
    exact ih _ (hu _ (leBytes_length _ _) (leBytes_isBytes _ _)) (set_mem h i h2)
  | hex upper i k ih =>
    intro rs hu h
    simp only [Client.full, FClient.int, Client.int, getD_int]
    exact ih _ (hu _) h

theorem Client.full_run {α : Type} {pr : Profile} (c : Client α) : ∀ rs : List Elem,
    c.full.run f pr rs = c.run f pr false rs := by
  induction c with
  | done x => intro rs; rfl
  | step o k ih =>
    intro rs
    simp only [Client.full, FClient.run, FOp.exec, Client.run, ih, Bool.false_eq_true, if_false]
    cases o.exec f pr rs <;> rfl
  | normalize i k ih => intro rs; simp only [Client.full, FClient.run, Client.run, ih]
  | eq i j k ih => intro rs; simp only [Client.full, FClient.run, Client.run, ih]
  | bit i idx k ih => intro rs; simp only [Client.full, FClient.run, Client.run, ih]
  | packed i k ih => intro rs; simp only [Client.full, FClient.run, Client.run, ih]
  | hex upper i k ih => intro rs; simp only [Client.full, FClient.run, Client.run, ih]

end

/-! ### C67 -/

/-- C67: what a program with all these instructions does in release and debug builds, from any representations, is what the machine on
integers says. -/
theorem C67_client (f : Fld) {α : Type} (c : FClient α) (hc : c.Args f) {rs : List Elem}
    (h : ∀ a ∈ rs, f.Rep a) : (c.int f (rs.map f.V)).Of fun pr => c.run f pr rs :=
  c.int_sound hc h

/-- C67 for the text of the field files. -/
theorem C67_text (f : Fld) {α : Type} (c : FClient α) (hc : c.Args f) :
    match c.int f [] with
    | .gives sure x =>
      (∀ w : World, w.pr = .release → c.text (src f) w 12 f = .ok x) ∧
      (∀ w : World, w.pr = .debug → c.text (src f) w 12 f = .ok x ∨
        sure = false ∧ c.text (src f) w 12 f = .error (.panic .overflow))
    | .panics => ∀ w : World, ∃ e, c.text (src f) w 12 f = .error (.panic e)
    | .beyond => True := by
  have h := C67_client f c hc (rs := []) nofun
  rw [List.map_nil] at h
  have t := fun w : World => FClient.text_eq (has_src f) w (Nat.le_refl 12) c
  cases hx : c.int f [] with
  | gives sure x =>
    simp only [hx, Verdict.Of] at h
    refine ⟨fun w hw => by rw [t, hw, h.1]; rfl, fun w hw => ?_⟩
    rw [t, hw]
    rcases h.2 with h2 | ⟨h2, h3⟩
    · exact .inl (by rw [h2]; rfl)
    · exact .inr ⟨h2, by rw [h3]; rfl⟩
  | panics =>
    simp only [hx, Verdict.Of] at h
    intro w
    obtain ⟨e, h⟩ := h w.pr
    exact ⟨e, by rw [t, h]; rfl⟩
  | beyond => trivial

/-- C67: `small_mul` with every `i32`, on everything that the other operations return.  Release builds give an element with the value
`mulInt`, which is the exact product with carries, cut off at 64 bits; debug builds give the same or panic with an overflow, and give the same if
`mulSure` holds. -/
theorem C67_small_mul (f : Fld) {a : Elem} {n : Int} (ha : f.Tight a) (hn : IsI32 n) :
    ∃ r, f.code.smallMul .release a n = .ok r ∧ f.Rep r ∧ f.V r = f.mulInt (f.V a) n ∧
      (f.code.smallMul .debug a n = .ok r ∨ f.code.smallMul .debug a n = .error .overflow) ∧
      (f.mulSure (f.V a) n = true → f.code.smallMul .debug a n = .ok r) :=
  smallMul_int ha hn

/-- C67: unless an operand is out of range, release builds answer as over `ℤ / p` if and only if the machine on integers does. -/
theorem C67_right_iff (f : Fld) {α : Type} (c : FClient α) (hc : c.Args f) (hb : c.int f [] ≠ .beyond) :
    c.run f .release [] = .ok (c.ideal f []) ↔ ∃ sure, c.int f [] = .gives sure (c.ideal f []) := by
  have h := C67_client f c hc (rs := []) nofun
  rw [List.map_nil] at h
  cases hx : c.int f [] with
  | gives sure x =>
    simp only [hx, Verdict.Of] at h
    rw [h.1]
    constructor
    · intro e
      exact ⟨sure, by rw [Except.ok.inj e]⟩
    · rintro ⟨s, e⟩
      cases e
      rfl
  | panics =>
    simp only [hx, Verdict.Of] at h
    obtain ⟨e, h⟩ := h .release
    rw [h]
    exact ⟨nofun, nofun⟩
  | beyond => exact absurd hx hb

/-- C67: unless an operand is out of range, a debug build that answers answers as release builds do. -/
theorem C67_builds (f : Fld) {α : Type} (c : FClient α) (hc : c.Args f) (hb : c.int f [] ≠ .beyond) {x : α}
    (h : c.run f .debug [] = .ok x) : c.run f .release [] = .ok x := by
  have h1 := C67_client f c hc (rs := []) nofun
  rw [List.map_nil] at h1
  cases hx : c.int f [] with
  | gives sure y =>
    simp only [hx, Verdict.Of] at h1
    rcases h1.2 with h2 | ⟨-, h2⟩
    · rw [h1.1, ← h2, h]
    · rw [h2] at h; cases h
  | panics =>
    simp only [hx, Verdict.Of] at h1
    obtain ⟨e, h1⟩ := h1 .debug
    rw [h1] at h; cases h
  | beyond => exact absurd hx hb

/-- C67 contains C64: for the programs of C64 no operand is out of range and every result is sure. -/
theorem C67_embeds (f : Fld) {α : Type} (c : Client α) (hc : c.Args f) :
    (∀ pr rs, c.full.run f pr rs = c.run f pr false rs) ∧
    c.full.int f [] = match c.int f [] with
      | some x => .gives true x
      | none => .panics :=
  ⟨fun _ => c.full_run, c.full_int hc (rs := []) nofun⟩

/-! ### Examples -/

/-- A step of a Montgomery ladder: for `E = A² - B²` it compares `E * (A² + m * E)` with `E * A² + m * E²`. -/
def montStep (as bs : List Int) (m : Int) : FClient Bool :=
  .step (.op (.bytes as)) <| .step (.op (.bytes bs)) <| .step (.op (.square 0)) <| .step (.op (.square 1)) <|
  .step (.op (.sub 2 3)) <| .step (.mulI 4 m) <| .step (.op (.add 2 5)) <| .step (.op (.mul 4 6)) <|
  .step (.op (.mul 4 2)) <| .step (.op (.square 4)) <| .step (.mulI 9 m) <| .step (.op (.add 8 10)) <|
  .eq 7 11 .done

/-- They are equal. -/
example (f : Fld) (as bs : List Int) (m : Int) : (montStep as bs m).ideal f [] = true := by
  simp [montStep, FClient.ideal, FOp.ideal, Op.ideal]
  ring

theorem montStep_args (f : Fld) {a b m : Int} (ha : 0 ≤ a ∧ a < 256) (hb : 0 ≤ b ∧ b < 256) (hm : IsI32 m) :
    (montStep (List.replicate 66 a) (List.replicate 66 b) m).Args f := by
  refine ⟨?_, ?_, trivial, trivial, trivial, hm, trivial, trivial, trivial, trivial, hm, trivial, fun _ => trivial⟩
  · intro x hx; rw [List.eq_of_mem_replicate hx]; exact ha
  · intro x hx; rw [List.eq_of_mem_replicate hx]; exact hb

/-- `Mod_e222_117` finds that in all builds for `A = 0x0707…`, `B = 0x0909…` and the constant `121665` of Curve25519. -/
example (w : World) : (montStep (List.replicate 66 7) (List.replicate 66 9) 121665).text (src .e222_117) w 12 .e222_117 = .ok true := by
  have h := C67_text .e222_117 _ (montStep_args .e222_117 (a := 7) (b := 9) (m := 121665) (by decide) (by decide) (by simp [IsI32]))
  rw [show (montStep (List.replicate 66 7) (List.replicate 66 9) 121665).int .e222_117 [] = .gives true true by
    decide +kernel] at h
  cases hw : w.pr with
  | release => exact h.1 w hw
  | debug => exact (h.2 w hw).resolve_right nofun

/-- `Mod_e255_19`, the field of that curve, does not, in any build. -/
example (w : World) : (montStep (List.replicate 66 7) (List.replicate 66 9) 121665).text (src .e255_19) w 12 .e255_19 = .ok false := by
  have h := C67_text .e255_19 _ (montStep_args .e255_19 (a := 7) (b := 9) (m := 121665) (by decide) (by decide) (by simp [IsI32]))
  rw [show (montStep (List.replicate 66 7) (List.replicate 66 9) 121665).int .e255_19 [] = .gives true false by
    decide +kernel] at h
  cases hw : w.pr with
  | release => exact h.1 w hw
  | debug => exact (h.2 w hw).resolve_right nofun

/-- With a larger constant release builds of these two types get it wrong; debug builds of the first may panic. -/
example : (montStep (List.replicate 66 9) (List.replicate 66 7) 2000000000).int .e222_117 [] = .gives false false ∧
    (montStep (List.replicate 66 9) (List.replicate 66 7) 2000000000).int .e414_17 [] = .gives true false := by
  decide +kernel

/-- An operand out of range: the square of a product with an integer. -/
example : (FClient.step (.op (.bytes (List.replicate 66 9))) <| .step (.mulI 0 121665) <| .step (.op (.square 1)) <|
    .packed 2 .done).int .e255_19 [] = .beyond := by
  decide +kernel

end Verif
