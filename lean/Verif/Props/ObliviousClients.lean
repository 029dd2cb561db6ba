import Verif.Props.MontgomeryLadder
import Verif.Props.Scripts

/-!
# Property C80: clients that do the same for all secrets

A client of a field type (C53, C59) is run with the record of C56.  Its registers count as an array: the number of every register read or
changed is recorded too.  Two clients are `Alike` if they give the same instructions on the same registers, whatever the answers they
get; the bytes they read (not their number), the integers of `small_add` and `small_sub`, the bits of selections, the answers of random
generators and the results may differ.  Then the records are the same.  The key agreement of C79 is an example, for all scalars and all
received bytes, in all builds; a client that chooses a register by a secret bit is not.
-/

namespace Verif
open Fld FieldCode Rust
open Rust.T (quiet tell)

/-! ### Recorded runs -/

/-- `ret`, recording. -/
def retT (x : T (Val × List Val)) : T Val := x >>= fun r => pure r.1

/-- `own`, recording. -/
def ownT (x : T (Val × List Val)) : T Val :=
  x >>= fun r => match r.2 with
    | .ref v :: _ => pure v
    | _ => quiet (.error .stuck)

/-- Read a register. -/
def regT (z : Val) (rs : List Val) (i : Nat) : T Val := do
  tell (.index i)
  pure (rs.getD i z)

section
variable (P : Program) (w : World) (n : Nat) (f : Fld)

/-- `Op.text`, recording. -/
def Op.textT (z : Val) (rs : List Val) (o : Op) : T Val :=
  let r := regT z rs
  let c := callFnT P w n (tyId f)
  match o with
  | zero => retT (c (id! "zero") [])
  | one => retT (c (id! "one") [])
  | mOne => retT (c (id! "m_one") [])
  | modulus => retT (c (id! "modulus") [])
  | bytes bs => retT (c (id! "unpacked") [slice bs])
  | rand rng => retT (callFnT P { w with rng := rng } n (tyId f) (id! "rand") [.ref (.rng 0)])
  | add i j => do retT (callOpT P w n (id! "Add") (.ref (← r i)) (.ref (← r j)))
  | sub i j => do retT (callOpT P w n (id! "Sub") (.ref (← r i)) (.ref (← r j)))
  | mul i j => do retT (callOpT P w n (id! "Mul") (.ref (← r i)) (.ref (← r j)))
  | div i j => do retT (callOpT P w n (id! "Div") (.ref (← r i)) (.ref (← r j)))
  | addI i k => do retT (c (id! "small_add") [.ref (← r i), i32V k])
  | subI i k => do retT (c (id! "small_sub") [.ref (← r i), i32V k])
  | square i => do retT (c (id! "squared") [.ref (← r i)])
  | invert i => do retT (c (id! "inverted") [.ref (← r i)])
  | legendre i => do retT (c (id! "legendre") [.ref (← r i)])
  | sqrt i => do retT (c (id! "sqrt") [.ref (← r i)])
  | select b i j => do
    let m ← retT (c (id! "filled") [.bool b])
    let x ← ownT (c (id! "normalized_bitand") [.ref (← r i), .ref m])
    let m ← retT (c (id! "filled") [.bool !b])
    let y ← ownT (c (id! "normalized_bitand") [.ref (← r j), .ref m])
    ownT (c (id! "normalized_bitor") [.ref x, .ref y])

/-- `txtH`, recording. -/
def txtHT (upper : Bool) (x : Val) : T (List Char) :=
  match P.opFn (if upper then id! "UpperHex" else id! "LowerHex") (false, tyId f) (false, tyId f) with
  | some fn => runT P w n fn [.ref x, .ref (.fmt [])] >>= fun r => quiet (seeFmt (r.2.getD 1 .unit))
  | none => quiet (.error .stuck)

/-- `Client.textFrom`, recording. -/
def Client.textFromT (nrm : Bool) (z : Val) {α : Type} : Client α → List Val → T α
  | done x, _ => pure x
  | step o k, rs => do
    let x ← o.textT P w n f z rs
    let x ← if nrm then ownT (callFnT P w n (tyId f) (id! "normalize") [.ref x]) else pure x
    k.textFromT nrm z (rs ++ [x])
  | normalize i k, rs => do
    let x ← ownT (callFnT P w n (tyId f) (id! "normalize") [.ref (← regT z rs i)])
    k.textFromT nrm z (rs.set i x)
  | eq i j k, rs => do
    let r ← callFnT P w n (tyId f) (id! "normalize_eq") [.ref (← regT z rs i), .ref (← regT z rs j)]
    let b ← quiet (seeBool r.1)
    (k b).textFromT nrm z ((rs.set i (r.2.getD 0 .unit).strip).set j (r.2.getD 1 .unit).strip)
  | bit i idx k, rs => do
    let r ← callFnT P w n (tyId f) (id! "bit") [.ref (← regT z rs i), usize idx]
    let b ← quiet (seeBool r.1)
    (k b).textFromT nrm z (rs.set i (r.2.getD 0 .unit).strip)
  | packed i k, rs => do
    let r ← callFnT P w n (tyId f) (id! "packed") [.ref (← regT z rs i)]
    let out ← quiet (seeBytes r.1)
    (k out).textFromT nrm z (rs.set i (r.2.getD 0 .unit).strip)
  | hex upper i k, rs => do
    let s ← txtHT P w n f upper (← regT z rs i)
    (k s).textFromT nrm z rs

/-- `Client.text`, recording. -/
def Client.textT (nrm : Bool) {α : Type} (c : Client α) : T α := do
  c.textFromT P w n f nrm (← retT (callFnT P w n (tyId f) (id! "zero") [])) []

/-! ### Recording does not change the results -/

@[simp] theorem retT_res (x : T (Val × List Val)) : (retT x).res = ret x.res := by
  rw [retT, res_bind]; rfl

@[simp] theorem ownT_res (x : T (Val × List Val)) : (ownT x).res = own x.res := by
  rw [ownT, res_bind, own]
  congr 1
  funext r
  rcases r with ⟨v, _ | ⟨u, vs⟩⟩
  · rfl
  · cases u <;> rfl

@[simp] theorem regT_res (z : Val) (rs : List Val) (i : Nat) : (regT z rs i).res = .ok (rs.getD i z) := rfl

private theorem ok_bind {α β : Type} (x : α) (g : α → Except Err β) : (Except.ok x >>= g) = g x := rfl

theorem Op.textT_res (z : Val) (rs : List Val) (o : Op) : (o.textT P w n f z rs).res = o.text P w n f z rs := by
  cases o <;>
    simp only [Op.textT, Op.text, txt0, txt1, txt2, txtI, txtB, txtR, txtM2, res_bind, retT_res, ownT_res, regT_res, ok_bind,
      (C56_faithful _ _ _).1, (C56_faithful _ _ _).2]

theorem txtHT_res (upper : Bool) (x : Val) : (txtHT P w n f upper x).res = txtH P w n f upper x := by
  unfold txtHT txtH
  rcases P.opFn (if upper then id! "UpperHex" else id! "LowerHex") (false, tyId f) (false, tyId f) with _ | fn
  · rfl
  · dsimp only
    rw [res_bind, runT_res]; rfl

theorem Client.textFromT_res (nrm : Bool) (z : Val) {α : Type} (c : Client α) (rs : List Val) :
    (c.textFromT P w n f nrm z rs).res = c.textFrom P w n f nrm z rs := by
  induction c generalizing rs with
  | done x => rfl
  | step o k ih =>
    cases nrm <;>
      simp only [Client.textFromT, Client.textFrom, res_bind, Op.textT_res, ih, if_true, if_false, Bool.false_eq_true, ownT_res, txtM,
        (C56_faithful _ _ _).1, res_pure]
  | normalize i k ih =>
    simp only [Client.textFromT, Client.textFrom, res_bind, ih, ownT_res, txtM, (C56_faithful _ _ _).1, regT_res, ok_bind]
  | eq i j k ih | bit i j k ih | packed i k ih =>
    simp only [Client.textFromT, Client.textFrom, res_bind, ih, (C56_faithful _ _ _).1, regT_res, ok_bind, res_quiet]
  | hex u i k ih =>
    simp only [Client.textFromT, Client.textFrom, res_bind, ih, txtHT_res, regT_res, ok_bind]

end

/-- C80: recording does not change the results. -/
theorem C80_faithful (P : Program) (w : World) (n : Nat) (f : Fld) (nrm : Bool) {α : Type} (c : Client α) :
    (c.textT P w n f nrm).res = c.text P w n f nrm := by
  simp only [Client.textT, Client.text, txt0, res_bind, retT_res, (C56_faithful _ _ _).1, Client.textFromT_res]

/-! ### Clients that differ in secrets only -/

/-- The same instruction on the same registers. -/
inductive Op.Alike : Op → Op → Prop where
  | refl (o : Op) : Op.Alike o o
  | bytes {bs bs' : List Int} : bs.length = bs'.length → Op.Alike (.bytes bs) (.bytes bs')
  | rand (rng rng' : Nat → Int → Int) : Op.Alike (.rand rng) (.rand rng')
  | addI (i : Nat) (k k' : Int) : Op.Alike (.addI i k) (.addI i k')
  | subI (i : Nat) (k k' : Int) : Op.Alike (.subI i k) (.subI i k')
  | select (b b' : Bool) (i j : Nat) : Op.Alike (.select b i j) (.select b' i j)

/-- The same instructions on the same registers, whatever the answers. -/
inductive Client.Alike {α : Type} : Client α → Client α → Prop where
  | done (x y : α) : Client.Alike (.done x) (.done y)
  | step {o o' : Op} {k k' : Client α} : o.Alike o' → Client.Alike k k' → Client.Alike (.step o k) (.step o' k')
  | normalize (i : Nat) {k k' : Client α} : Client.Alike k k' → Client.Alike (.normalize i k) (.normalize i k')
  | eq (i j : Nat) {k k' : Bool → Client α} : (∀ b b', Client.Alike (k b) (k' b')) → Client.Alike (.eq i j k) (.eq i j k')
  | bit (i idx : Nat) {k k' : Bool → Client α} : (∀ b b', Client.Alike (k b) (k' b')) → Client.Alike (.bit i idx k) (.bit i idx k')
  | packed (i : Nat) {k k' : List Int → Client α} : (∀ out out', out.length = out'.length → Client.Alike (k out) (k' out')) →
    Client.Alike (.packed i k) (.packed i k')
  | hex (upper : Bool) (i : Nat) {k k' : List Char → Client α} : (∀ s s', Client.Alike (k s) (k' s')) →
    Client.Alike (.hex upper i k) (.hex upper i k')

section
variable {P : Program} {pr : Profile} {curve : Id} {rng rng' : Nat → Int → Int} {n : Nat} {f : Fld}

private theorem same_fn (t m : Id) {vs ws : List Val} (h : Los vs ws) :
    Same pr LoCall (callFnT P ⟨pr, curve, rng⟩ n t m vs) (callFnT P ⟨pr, curve, rng'⟩ n t m ws) := by
  unfold callFnT
  split
  · exact runT_lo _ _ _ _ _ _ _ h
  · exact .stuck

private theorem same_op (o : Id) {v v' u u' : Val} (h : Lo v v') (hu : Lo u u') :
    Same pr LoCall (callOpT P ⟨pr, curve, rng⟩ n o (.ref v) (.ref u)) (callOpT P ⟨pr, curve, rng'⟩ n o (.ref v') (.ref u')) := by
  unfold callOpT
  rw [(Lo.ref h).ty, (Lo.ref hu).ty]
  rcases (Val.ref v').ty with _ | l
  · exact .stuck
  rcases (Val.ref u').ty with _ | r
  · exact .stuck
  dsimp only
  rcases P.opFn o l r with _ | fn
  · exact .stuck
  · refine runT_lo _ _ _ _ _ _ _ (.cons ?_ (.cons (.ref hu) .nil))
    split
    · exact .ref (.ref h)
    · exact .ref h

private theorem same_ret {s t : T (Val × List Val)} (h : Same pr LoCall s t) : Same pr Lo (retT s) (retT t) :=
  h.bind fun _ _ h => .pure h.1

private theorem same_own {s t : T (Val × List Val)} (h : Same pr LoCall s t) : Same pr Lo (ownT s) (ownT t) := by
  refine h.bind fun a b h => ?_
  obtain ⟨a, as⟩ := a
  obtain ⟨b, bs⟩ := b
  have hs : Los as bs := h.2
  cases hs with
  | nil => exact .stuck
  | cons hv _ =>
    cases hv with
    | ref hv => exact .pure hv
    | _ => exact .stuck

private theorem getD_lo {rs rs' : List Val} (h : Los rs rs') {z z' : Val} (hz : Lo z z') (i : Nat) :
    Lo (rs.getD i z) (rs'.getD i z') := by
  rw [List.getD_eq_getElem?_getD, List.getD_eq_getElem?_getD]
  rcases Los.get h i with ⟨v, w, e1, e2, hvw⟩ | ⟨e1, e2⟩
  · rw [e1, e2]; exact hvw
  · rw [e1, e2]; exact hz

private theorem same_reg {rs rs' : List Val} (h : Los rs rs') {z z' : Val} (hz : Lo z z') (i : Nat) :
    Same pr Lo (regT z rs i) (regT z' rs' i) :=
  (Same.tell _).bind fun _ _ _ => .pure (getD_lo h hz i)

private theorem seeBool_lo {v w : Val} (h : Lo v w) : Both (fun _ _ => True) (seeBool v) (seeBool w) := by
  cases h <;> first | exact .ok trivial | exact .error _

private theorem seeFmt_lo {v w : Val} (h : Lo v w) : Both (fun _ _ => True) (seeFmt v) (seeFmt w) := by
  cases h with
  | ref h => cases h <;> first | exact .ok trivial | exact .error _
  | _ => exact .error _

private theorem seeBytes_lo {v w : Val} (h : Lo v w) : Both (fun a b => a.length = b.length) (seeBytes v) (seeBytes w) := by
  cases h with
  | arr h =>
    unfold seeBytes
    dsimp only
    induction h with
    | nil => exact .ok rfl
    | cons h _ ih =>
      rw [List.mapM_cons, List.mapM_cons]
      refine Both.bind (R := fun _ _ => True) ?_ fun _ _ _ => ih.bind fun _ _ h => .ok (congrArg Nat.succ h)
      cases h with
      | same t m => cases t with
        | none => exact .error _
        | some t => cases t <;> first | exact .ok trivial | exact .error _
      | secret t m n => cases t <;> first | exact .ok trivial | exact .error _
      | _ => exact .error _
  | _ => exact .error _

private theorem lo_i32 (k k' : Int) : Lo (i32V k) (i32V k') := .secret _ _ _ (by decide)

private theorem same_textT {rs rs' : List Val} (h : Los rs rs') {z z' : Val} (hz : Lo z z') {o o' : Op} (ho : o.Alike o') :
    Same pr Lo (o.textT P ⟨pr, curve, rng⟩ n f z rs) (o'.textT P ⟨pr, curve, rng'⟩ n f z' rs') := by
  have r := same_reg (pr := pr) h hz
  have un (i : Nat) (m : Id) : Same pr Lo (regT z rs i >>= fun x => retT (callFnT P ⟨pr, curve, rng⟩ n (tyId f) m [.ref x]))
      (regT z' rs' i >>= fun x => retT (callFnT P ⟨pr, curve, rng'⟩ n (tyId f) m [.ref x])) :=
    (r i).bind fun _ _ h => same_ret (same_fn _ _ (.cons (.ref h) .nil))
  have int (i : Nat) (m : Id) (k k' : Int) :
      Same pr Lo (regT z rs i >>= fun x => retT (callFnT P ⟨pr, curve, rng⟩ n (tyId f) m [.ref x, i32V k]))
      (regT z' rs' i >>= fun x => retT (callFnT P ⟨pr, curve, rng'⟩ n (tyId f) m [.ref x, i32V k'])) :=
    (r i).bind fun _ _ h => same_ret (same_fn _ _ (.cons (.ref h) (.cons (lo_i32 k k') .nil)))
  have bin (i j : Nat) (m : Id) :
      Same pr Lo (regT z rs i >>= fun x => regT z rs j >>= fun y => retT (callOpT P ⟨pr, curve, rng⟩ n m (.ref x) (.ref y)))
      (regT z' rs' i >>= fun x => regT z' rs' j >>= fun y => retT (callOpT P ⟨pr, curve, rng'⟩ n m (.ref x) (.ref y))) :=
    (r i).bind fun _ _ h => (r j).bind fun _ _ h' => same_ret (same_op _ h h')
  have sel (b b' : Bool) (i j : Nat) : Same pr Lo ((Op.select b i j).textT P ⟨pr, curve, rng⟩ n f z rs)
      ((Op.select b' i j).textT P ⟨pr, curve, rng'⟩ n f z' rs') :=
    (same_ret (same_fn _ _ (.cons (.bool b b') .nil))).bind fun _ _ hm => (r i).bind fun _ _ hi =>
      (same_own (same_fn _ _ (.cons (.ref hi) (.cons (.ref hm) .nil)))).bind fun _ _ hx =>
      (same_ret (same_fn _ _ (.cons (.bool _ _) .nil))).bind fun _ _ hm => (r j).bind fun _ _ hj =>
      (same_own (same_fn _ _ (.cons (.ref hj) (.cons (.ref hm) .nil)))).bind fun _ _ hy =>
      same_own (same_fn _ _ (.cons (.ref hx) (.cons (.ref hy) .nil)))
  cases ho with
  | refl o =>
    cases o with
    | zero | one | mOne | modulus => exact same_ret (same_fn _ _ .nil)
    | bytes bs => exact same_ret (same_fn _ _ (Lo.refls _))
    | rand r => exact same_ret (same_fn _ _ (Lo.refls _))
    | add | sub | mul | div => exact bin _ _ _
    | addI | subI => exact int _ _ _ _
    | square | invert | legendre | sqrt => exact un _ _
    | select => exact sel _ _ _ _
  | bytes h => exact same_ret (same_fn _ _ (.cons (lo_slice h) .nil))
  | rand => exact same_ret (same_fn _ _ (Lo.refls _))
  | addI | subI => exact int _ _ _ _
  | select => exact sel _ _ _ _

private theorem same_fromT (nrm : Bool) {z z' : Val} (hz : Lo z z') {α : Type} {c c' : Client α} (hc : c.Alike c') {rs rs' : List Val}
    (h : Los rs rs') : Same pr (fun _ _ => True) (c.textFromT P ⟨pr, curve, rng⟩ n f nrm z rs)
      (c'.textFromT P ⟨pr, curve, rng'⟩ n f nrm z' rs') := by
  have r {rs rs' : List Val} (h : Los rs rs') := same_reg (pr := pr) h hz
  have nz {v w : Val} (h : Lo v w) : Same pr Lo (ownT (callFnT P ⟨pr, curve, rng⟩ n (tyId f) (id! "normalize") [.ref v]))
      (ownT (callFnT P ⟨pr, curve, rng'⟩ n (tyId f) (id! "normalize") [.ref w])) :=
    same_own (same_fn _ _ (.cons (.ref h) .nil))
  induction hc generalizing rs rs' with
  | done => exact .pure trivial
  | step ho _ ih =>
    refine (same_textT h hz ho).bind fun _ _ hx => ?_
    cases nrm
    · exact Same.bind (.pure hx) fun _ _ hx => ih (lo_snoc h hx)
    · exact (nz hx).bind fun _ _ hx => ih (lo_snoc h hx)
  | normalize i _ ih => exact (r h i).bind fun _ _ hx => (nz hx).bind fun _ _ hx => ih (h.set i hx)
  | eq i j _ ih =>
    refine (r h i).bind fun _ _ hx => (r h j).bind fun _ _ hy => (same_fn _ _ (.cons (.ref hx) (.cons (.ref hy) .nil))).bind fun _ _ hr =>
      (Same.quiet (seeBool_lo hr.1)).bind fun b b' _ => ih b b' ((h.set i ?_).set j ?_)
    · exact (Los.getD hr.2 0).strip
    · exact (Los.getD hr.2 1).strip
  | bit i idx _ ih =>
    exact (r h i).bind fun _ _ hx => (same_fn _ _ (.cons (.ref hx) (Lo.refls _))).bind fun _ _ hr =>
      (Same.quiet (seeBool_lo hr.1)).bind fun b b' _ => ih b b' (h.set i (Los.getD hr.2 0).strip)
  | packed i _ ih =>
    exact (r h i).bind fun _ _ hx => (same_fn _ _ (.cons (.ref hx) .nil)).bind fun _ _ hr =>
      (Same.quiet (seeBytes_lo hr.1)).bind fun b b' hb => ih b b' hb (h.set i (Los.getD hr.2 0).strip)
  | hex u i _ ih =>
    refine (r h i).bind fun _ _ hx => Same.bind (R := fun _ _ => True) ?_ fun s s' _ => ih s s' h
    unfold txtHT
    split
    · exact (runT_lo _ _ _ _ _ _ _ (.cons (.ref hx) (Lo.refls _))).bind fun _ _ hr => .quiet (seeFmt_lo (Los.getD hr.2 1))
    · exact .stuck

private theorem same_client (nrm : Bool) {α : Type} {c c' : Client α} (hc : c.Alike c') :
    Same pr (fun _ _ => True) (c.textT P ⟨pr, curve, rng⟩ n f nrm) (c'.textT P ⟨pr, curve, rng'⟩ n f nrm) :=
  (same_ret (same_fn _ _ .nil)).bind fun _ _ hz => same_fromT nrm hz hc .nil

end

/-! ### The property -/

/-- C80: in release builds clients that differ in secrets only have the same record, and both succeed or fail in the same way. -/
theorem C80_release (P : Program) (curve : Id) (rng rng' : Nat → Int → Int) (n : Nat) (f : Fld) (nrm : Bool) {α : Type}
    {c c' : Client α} (hc : c.Alike c') :
    (c.textT P ⟨.release, curve, rng⟩ n f nrm).trace = (c'.textT P ⟨.release, curve, rng'⟩ n f nrm).trace ∧
    Both (fun _ _ => True) (c.text P ⟨.release, curve, rng⟩ n f nrm) (c'.text P ⟨.release, curve, rng'⟩ n f nrm) := by
  rw [← C80_faithful, ← C80_faithful]
  rcases same_client (P := P) (pr := .release) (curve := curve) (rng := rng) (rng' := rng') (n := n) (f := f) nrm hc with
    ⟨h1, h2⟩ | ⟨h, -, -⟩ | ⟨h, -, -⟩
  · exact ⟨h1, h2⟩
  · cases h
  · cases h

/-- C80: in debug builds one of the records may end early, by an overflow. -/
theorem C80_debug (P : Program) (pr : Profile) (curve : Id) (rng rng' : Nat → Int → Int) (n : Nat) (f : Fld) (nrm : Bool) {α : Type}
    {c c' : Client α} (hc : c.Alike c') :
    (c.textT P ⟨pr, curve, rng⟩ n f nrm).trace = (c'.textT P ⟨pr, curve, rng'⟩ n f nrm).trace ∨
    c.text P ⟨pr, curve, rng⟩ n f nrm = .error (.panic .overflow) ∧
      (c.textT P ⟨pr, curve, rng⟩ n f nrm).trace <+: (c'.textT P ⟨pr, curve, rng'⟩ n f nrm).trace ∨
    c'.text P ⟨pr, curve, rng'⟩ n f nrm = .error (.panic .overflow) ∧
      (c'.textT P ⟨pr, curve, rng'⟩ n f nrm).trace <+: (c.textT P ⟨pr, curve, rng⟩ n f nrm).trace := by
  rw [← C80_faithful, ← C80_faithful]
  rcases same_client (P := P) (pr := pr) (curve := curve) (rng := rng) (rng' := rng') (n := n) (f := f) nrm hc with
    ⟨h1, h2⟩ | ⟨-, h1, h2⟩ | ⟨-, h1, h2⟩
  · exact .inl h1
  · exact .inr (.inl ⟨h1, h2⟩)
  · exact .inr (.inr ⟨h1, h2⟩)

/-- C80: runs that succeed have the same record, in both kinds of builds. -/
theorem C80_success (P : Program) (pr : Profile) (curve : Id) (rng rng' : Nat → Int → Int) (n : Nat) (f : Fld) (nrm : Bool) {α : Type}
    {c c' : Client α} (hc : c.Alike c') {x x' : α} (h : c.text P ⟨pr, curve, rng⟩ n f nrm = .ok x)
    (h' : c'.text P ⟨pr, curve, rng'⟩ n f nrm = .ok x') :
    (c.textT P ⟨pr, curve, rng⟩ n f nrm).trace = (c'.textT P ⟨pr, curve, rng'⟩ n f nrm).trace := by
  rcases C80_debug P pr curve rng rng' n f nrm hc with h1 | ⟨h1, -⟩ | ⟨h1, -⟩
  · exact h1
  · rw [h] at h1; cases h1
  · rw [h'] at h1; cases h1

/-! ### Key agreement -/

theorem Client.Alike.ops {α : Type} {k k' : Client α} (hk : k.Alike k') :
    ∀ {os os' : List Op}, List.Forall₂ Op.Alike os os' → (Client.ops os k).Alike (Client.ops os' k')
  | _, _, .nil => hk
  | _, _, .cons h hs => .step h (Client.Alike.ops hk hs)

theorem Mont.alike_rounds : ∀ {l l' : List Bool} (n i j i' j' : Nat), l.length = l'.length →
    (ladderRounds l n i j i' j').Alike (ladderRounds l' n i j i' j')
  | [], [], _, _, _, _, _, _ => .step (.refl _) (.packed _ fun _ _ _ => .done _ _)
  | b :: l, b' :: l', n, i, j, i', j', h => by
    refine Client.Alike.ops (Mont.alike_rounds _ _ _ _ _ (Nat.succ.inj h)) ?_
    unfold ladderRound
    repeat' apply List.Forall₂.cons
    all_goals first | exact .nil | exact .select _ _ _ _ | exact .refl _

theorem scalarBits_length (s : List Int) : (scalarBits s).length = 8 * s.length := by
  simp [scalarBits, List.length_flatMap]
  omega

/-- C80: the clients of C79 differ in secrets only. -/
theorem C80_montgomery_alike (c : Mont) {s s' us us' : List Int} (hs : s.length = s'.length) (hu : us.length = us'.length) :
    (c.program s us).Alike (c.program s' us') :=
  .step (.bytes hu) <| .step (.refl _) <| .step (.refl _) <| .step (.refl _) <|
    Mont.alike_rounds _ _ _ _ _ (by rw [scalarBits_length, scalarBits_length, hs])

/-- The scalars `1` and `200`, the base point and bytes that are all zero. -/
example (c : Mont) : (c.program [1] c.baseBytes).Alike (c.program [200] (List.replicate c.baseBytes.length 0)) :=
  C80_montgomery_alike c rfl (by simp)

/-- C80: they do the same for all scalars and all received bytes, in all builds. -/
theorem C80_montgomery (c : Mont) (pr : Profile) (curve : Id) (rng rng' : Nat → Int → Int) {s s' us us' : List Int}
    (hs : s.length = s'.length) (hl : us.length = us'.length) (hu : (Op.bytes us).Valid c.fld) (hu' : (Op.bytes us').Valid c.fld) :
    ((c.program s us).textT (src c.fld) ⟨pr, curve, rng⟩ 12 c.fld true).trace =
      ((c.program s' us').textT (src c.fld) ⟨pr, curve, rng'⟩ 12 c.fld true).trace :=
  C80_success _ _ _ _ _ _ _ _ (C80_montgomery_alike c hs hl) (C59_client_normalizing c.fld _ _ (c.uses_program s us hu))
    (C59_client_normalizing c.fld _ _ (c.uses_program s' us' hu'))

/-! ### A client with a branch -/

/-- Square one element or another, by a secret bit, the client choosing the register. -/
def branching (b : Bool) : Client (List Int) :=
  .step .one <| .step .mOne <| .step (.square (if b then 0 else 1)) <| .packed 2 .done

private theorem cancel {α β : Type} {s : T α} {g g' : α → T β} {y : β} (h : (s >>= g).trace = (s >>= g').trace)
    (hy : (s >>= g).res = .ok y) : ∃ x, (g x).trace = (g' x).trace ∧ (g x).res = .ok y := by
  cases hs : s.res with
  | error e => rw [bind_error hs] at hy; cases hy
  | ok x =>
    rw [bind_ok hs, bind_ok hs] at h
    rw [bind_ok hs] at hy
    exact ⟨x, List.append_cancel_left h, hy⟩

/-- C80: the records differ. -/
theorem C80_branching_leaks (f : Fld) (w : World) (nrm : Bool) :
    ((branching true).textT (src f) w 12 f nrm).trace ≠ ((branching false).textT (src f) w 12 f nrm).trace := by
  intro h
  have ok : ∃ y, ((branching true).textT (src f) w 12 f nrm).res = .ok y := by
    rw [C80_faithful]
    cases nrm
    · exact ⟨_, C59_client f w _ (by simp [branching, Client.Uses, Op.Valid, Op.Fits])⟩
    · exact ⟨_, C59_client_normalizing f w _ (by simp [branching, Client.Uses, Op.Valid, Op.NotPow])⟩
  have key (i : Nat) (k : Client (List Int)) (z : Val) (rs : List Val) :
      [Event.index i] <+: ((Client.step (.square i) k).textFromT (src f) w 12 f nrm z rs).trace :=
    (trace_prefix (regT z rs i) _).trans (trace_prefix _ _)
  obtain ⟨y, hy⟩ := ok
  obtain ⟨z, h, hy⟩ := cancel h hy
  cases nrm <;>
  · obtain ⟨a, h, hy⟩ := cancel h hy
    obtain ⟨a, h, hy⟩ := cancel h hy
    obtain ⟨b, h, hy⟩ := cancel h hy
    obtain ⟨b, h, hy⟩ := cancel h hy
    have h1 := (key 0 (.packed 2 .done) z [a, b]).trans ⟨[], (List.append_nil _).trans h⟩
    have h2 := key 1 (.packed 2 .done) z [a, b]
    exact absurd (List.prefix_of_prefix_length_le h1 h2 (Nat.le_refl 1)) (by simp)

/-! ### Examples -/

/-- Ask for a square root, look at the result and use neither the answer nor, in the end, the root. -/
private def careful (b : Bool) (bs : List Int) : Client Nat :=
  .step (.bytes bs) <| .step (.sqrt 0) <| .step (.square 1) <| .eq 0 2 fun q => .step (.select (b && q) 1 0) <| .packed 3 fun out =>
    .done out.length

example (b b' : Bool) (bs bs' : List Int) (h : bs.length = bs'.length) : (careful b bs).Alike (careful b' bs') :=
  .step (.bytes h) <| .step (.refl _) <| .step (.refl _) <| .eq _ _ fun _ _ => .step (.select _ _ _ _) <| .packed _ fun _ _ _ => .done _ _

/-- All words, with too few bytes too. -/
example (f : Fld) (b b' : Bool) (bs bs' : List Int) (h : bs.length = bs'.length) :
    ((careful b bs).textT (src f) ⟨.release, 0, fun _ _ => 0⟩ 12 f false).trace =
      ((careful b' bs').textT (src f) ⟨.release, 0, fun _ _ => 0⟩ 12 f false).trace :=
  (C80_release _ _ _ _ _ _ _ (.step (.bytes h) <| .step (.refl _) <| .step (.refl _) <| .eq _ _ fun _ _ =>
    .step (.select _ _ _ _) <| .packed _ fun _ _ _ => .done _ _)).1

/-- A client that looks at the answer is not like itself. -/
example : ¬ (Client.eq 0 1 fun q => if q then .step .one (.done 0) else .done 1 : Client Nat).Alike
    (.eq 0 1 fun q => if q then .step .one (.done 0) else .done 1) := by
  intro h
  cases h with
  | eq _ _ h => exact nomatch h true false

example (f : Fld) (w : World) : ((careful true [1, 2]).textT (src f) w 12 f true).res = (careful true [1, 2]).text (src f) w 12 f true :=
  C80_faithful _ _ _ _ _ _

/-- A scalar with many bits and one with few, the exported base point and the point at zero. -/
example (c : Mont) (pr : Profile) :
    ((c.program [255, 255, 127] c.baseBytes).textT (src c.fld) ⟨pr, 0, fun _ _ => 0⟩ 12 c.fld true).trace =
      ((c.program [0, 0, 1] (leBytes c.fld.nbytes (0 : c.K).val)).textT (src c.fld) ⟨pr, 0, fun _ _ => 0⟩ 12 c.fld true).trace :=
  C80_montgomery c pr _ _ _ rfl (by rw [Mont.baseBytes, leBytes_length, leBytes_length]) (Mont.valid_base c)
    (Mont.received_leBytes (0 : c.K)).2

end Verif
