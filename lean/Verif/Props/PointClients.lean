import Verif.Props.TextClients
import Verif.Props.Observed

/-!
# C62: programs that use the curves

Clients as in C53 and C59, now of a curve: besides elements of the field they have points, which they get
from `zero`, `init`, `+`, `+=`, `double`, `triple` and the two multiplications by a scalar.  They may look at
elements and go on depending on what they see.  Nothing in `edwards.rs` shows anything of a point, so
that the only effect of an instruction on points that a client can see is a panic, or the normalization of the
scalar by `scalar_mult`.  It is proved that there are no panics and that, up to that normalization, the
instructions on points cannot be seen at all.
-/

namespace Verif

open Rust

/-! ### Clients of a curve -/

/-- Instructions on points; `p` and `q` are numbers of points, `i` and `j` of elements. -/
inductive PtOp
  | zero
  | copy (p : Nat)
  | init (p i j : Nat)
  | addAssign (p q : Nat)
  | add (p q : Nat)
  | double (p : Nat)
  | doubled (p : Nat)
  | triple (p : Nat)
  | tripled (p : Nat)
  | multN (p i : Nat)

/-- The point an instruction writes to; `none` for a new point. -/
def PtOp.dest : PtOp → Option Nat
  | zero | copy _ | add _ _ | doubled _ | tripled _ => none
  | init p _ _ | addAssign p _ | double p | triple p | multN p _ => some p

/-- Put a point where it belongs. -/
def store {β : Type} (d : Option Nat) (ps : List β) (x : β) : List β :=
  match d with
  | none => ps ++ [x]
  | some p => ps.set p x

/-- A client of a curve.  `mult p i` is `scalar_mult`, which normalizes its scalar. -/
inductive CClient (α : Type)
  | done (x : α)
  | step (o : Op) (k : CClient α)
  | normalize (i : Nat) (k : CClient α)
  | eq (i j : Nat) (k : Bool → CClient α)
  | bit (i idx : Nat) (k : Bool → CClient α)
  | packed (i : Nat) (k : List Int → CClient α)
  | hex (upper : Bool) (i : Nat) (k : List Char → CClient α)
  | point (o : PtOp) (k : CClient α)
  | mult (p i : Nat) (k : CClient α)

/-- The client without its points. -/
def CClient.erase {α : Type} : CClient α → Client α
  | done x => .done x
  | step o k => .step o k.erase
  | normalize i k => .normalize i k.erase
  | eq i j k => .eq i j fun b => (k b).erase
  | bit i idx k => .bit i idx fun b => (k b).erase
  | packed i k => .packed i fun out => (k out).erase
  | hex upper i k => .hex upper i fun s => (k s).erase
  | point _ k => k.erase
  | mult _ i k => .normalize i k.erase

/-- As `Client.Uses`, but nothing is supposed about packed bytes except their number: all instructions the
client can come to are among those of `P` and have arguments of the Rust types, byte strings that are long enough
and bit indices inside the words. -/
def Client.Typed (f : Fld) (P : Op → Prop) {α : Type} : Client α → Prop
  | done _ => True
  | step o k => P o ∧ o.Valid f ∧ k.Typed f P
  | normalize _ k => k.Typed f P
  | eq _ _ k => ∀ b, (k b).Typed f P
  | bit _ idx k => idx < f.L * f.k ∧ ∀ b, (k b).Typed f P
  | packed _ k => ∀ out, out.length = f.nbytes → IsBytes out → (k out).Typed f P
  | hex _ _ k => ∀ s, (k s).Typed f P

/-! ### Running them -/

section
variable (c : Crv) (pr : Profile)

/-- The point an instruction gives. -/
def PtOp.exec (rs : List Elem) (ps : List (EdwardsExtended Elem)) (o : PtOp) : Res (EdwardsExtended Elem) :=
  let C := c.scalar pr
  let r := fun i => rs.getD i c.fld.code.ZERO
  let q := fun p => ps.getD p (EdwardsExtended.zero C)
  match o with
  | zero => .ok (EdwardsExtended.zero C)
  | copy p => .ok (q p)
  | init p i j => .ok ((q p).init C (r i) (r j))
  | addAssign p p' => (q p).addAssign C (q p')
  | add p p' => (q p).add C (q p')
  | double p => (q p).double C
  | doubled p => (q p).doubled C
  | triple p => (q p).triple C
  | tripled p => (q p).tripled C
  | multN p i => (q p).scalarMultNormalized C (r i)

/-- Run a client of a curve on the model. -/
def CClient.run {α : Type} : CClient α → List Elem → List (EdwardsExtended Elem) → Res α
  | done x, _, _ => .ok x
  | step o k, rs, ps => do
    let x ← o.exec c.fld pr rs
    k.run (rs ++ [x]) ps
  | normalize i k, rs, ps => do
    k.run (rs.set i (← c.fld.code.normalize pr (rs.getD i c.fld.code.ZERO))) ps
  | eq i j k, rs, ps => do
    let (x, y, b) ← c.fld.code.normalizeEq pr (rs.getD i c.fld.code.ZERO) (rs.getD j c.fld.code.ZERO)
    (k b).run ((rs.set i x).set j y) ps
  | bit i idx k, rs, ps => do
    let (x, b) ← c.fld.code.bit pr (rs.getD i c.fld.code.ZERO) idx
    (k b).run (rs.set i x) ps
  | packed i k, rs, ps => do
    let (x, out) ← c.fld.code.packed pr (rs.getD i c.fld.code.ZERO)
    (k out).run (rs.set i x) ps
  | hex upper i k, rs, ps => do
    let s ← c.fld.code.fmtHex pr upper (rs.getD i c.fld.code.ZERO)
    (k s).run rs ps
  | point o k, rs, ps => do
    let x ← o.exec c pr rs ps
    k.run rs (store o.dest ps x)
  | mult p i k, rs, ps => do
    let (x, y) ← (ps.getD p (EdwardsExtended.zero (c.scalar pr))).scalarMult (c.scalar pr) (rs.getD i c.fld.code.ZERO)
    k.run (rs.set i y) (ps.set p x)

end

section
variable (P : Program) (w : World) (n : Nat) (f : Fld)

/-- The point an instruction gives when the functions of the text are called; `z` and `zp` stand for the results
of `zero()`. -/
def PtOp.text (z zp : Val) (rs ps : List Val) (o : PtOp) : Except Err Val :=
  let r := fun i => rs.getD i z
  let q := fun p => ps.getD p zp
  match o with
  | zero => ret (callPt P w n (id! "zero") [])
  | copy p => .ok (q p)
  | init p i j => own (callPt P w n (id! "init") [.ref (q p), r i, r j])
  | addAssign p p' => own (callOp P w n (id! "AddAssign") (q p) (.ref (q p')))
  | add p p' => ret (callOp P w n (id! "Add") (.ref (q p)) (.ref (q p')))
  | double p => own (callPt P w n (id! "double") [.ref (q p)])
  | doubled p => ret (callPt P w n (id! "doubled") [.ref (q p)])
  | triple p => own (callPt P w n (id! "triple") [.ref (q p)])
  | tripled p => ret (callPt P w n (id! "tripled") [.ref (q p)])
  | multN p i => own (callPt P w n (id! "scalar_mult_normalized") [.ref (q p), .ref (r i)])

/-- Run a client of a curve by calling the functions of the text. -/
def CClient.textFrom (z zp : Val) {α : Type} : CClient α → List Val → List Val → Except Err α
  | done x, _, _ => .ok x
  | step o k, rs, ps => do
    let x ← o.text P w n f z rs
    k.textFrom z zp (rs ++ [x]) ps
  | normalize i k, rs, ps => do
    k.textFrom z zp (rs.set i (← txtM P w n f (id! "normalize") (rs.getD i z))) ps
  | eq i j k, rs, ps => do
    let r ← callFn P w n (tyId f) (id! "normalize_eq") [.ref (rs.getD i z), .ref (rs.getD j z)]
    let b ← seeBool r.1
    (k b).textFrom z zp ((rs.set i (r.2.getD 0 .unit).strip).set j (r.2.getD 1 .unit).strip) ps
  | bit i idx k, rs, ps => do
    let r ← callFn P w n (tyId f) (id! "bit") [.ref (rs.getD i z), usize idx]
    let b ← seeBool r.1
    (k b).textFrom z zp (rs.set i (r.2.getD 0 .unit).strip) ps
  | packed i k, rs, ps => do
    let r ← callFn P w n (tyId f) (id! "packed") [.ref (rs.getD i z)]
    let out ← seeBytes r.1
    (k out).textFrom z zp (rs.set i (r.2.getD 0 .unit).strip) ps
  | hex upper i k, rs, ps => do
    let s ← txtH P w n f upper (rs.getD i z)
    (k s).textFrom z zp rs ps
  | point o k, rs, ps => do
    let x ← o.text P w n z zp rs ps
    k.textFrom z zp rs (store o.dest ps x)
  | mult p i k, rs, ps => do
    let r ← callPt P w n (id! "scalar_mult") [.ref (ps.getD p zp), .ref (rs.getD i z)]
    k.textFrom z zp (rs.set i (r.2.getD 1 .unit).strip) (ps.set p (r.2.getD 0 .unit).strip)

/-- Run a client of a curve from the start. -/
def CClient.text {α : Type} (k : CClient α) : Except Err α := do
  let z ← txt0 P w n f (id! "zero")
  let zp ← ret (callPt P w n (id! "zero") [])
  k.textFrom P w n f z zp [] []

end

/-! ### Elements that can be reached -/

/-- The words `a` are the result of some computation, in all builds. -/
def Fld.Reach (f : Fld) (a : Elem) : Prop := ∃ e : Ex, e.Valid f ∧ ∀ pr, e.exec f pr = .ok a

namespace Fld.Reach
variable {f : Fld} {a b : Elem}

theorem tight (h : f.Reach a) : f.Tight a := by
  obtain ⟨e, h1, h2⟩ := h
  obtain ⟨r, h3, h4⟩ := C08_never_panics f e h1
  have h5 := h3 .debug
  rw [h2] at h5
  exact Except.ok.inj h5 ▸ h4

theorem zero (f : Fld) : f.Reach f.code.ZERO := ⟨.zero, trivial, fun _ => rfl⟩

theorem normalize (h : f.Reach a) : ∃ r, (∀ pr, f.code.normalize pr a = .ok r) ∧ f.Reach r := by
  obtain ⟨e, h1, h2⟩ := h
  obtain ⟨r, h3, -⟩ := C08_never_panics f (.normalize e) h1
  refine ⟨r, fun pr => ?_, .normalize e, h1, h3⟩
  have := h3 pr
  simp only [Ex.exec, h2, bind, Except.bind] at this
  exact this

theorem eq (ha : f.Reach a) (hb : f.Reach b) : ∃ x y r, (∀ pr, f.code.normalizeEq pr a b = .ok (x, y, r)) ∧
    f.Reach x ∧ f.Reach y := by
  obtain ⟨x, hx, hx'⟩ := ha.normalize
  obtain ⟨y, hy, hy'⟩ := hb.normalize
  refine ⟨x, y, (List.zipWith (fun x y => decide (x = y)) x y).all id, fun pr => ?_, hx', hy'⟩
  simp only [FieldCode.normalizeEq, FieldCode.normalizeSelfEq, hx, hy, bind, Except.bind, pure, Except.pure]

theorem bit (ha : f.Reach a) {i : Nat} (hi : i < f.L * f.k) : ∃ x b, (∀ pr, f.code.bit pr a i = .ok (x, b)) ∧
    f.Reach x := by
  obtain ⟨x, hx, hx'⟩ := ha.normalize
  refine ⟨x, decide (f.normVal (f.V a) / 2 ^ i % 2 = 1), fun pr => ?_, hx'⟩
  obtain ⟨x', h1⟩ := C20_bit_exact f pr (Fld.Tight.rep ha.tight) hi
  have h2 := h1
  rw [FieldCode.bit, hx] at h2
  simp only [ok_bind] at h2
  obtain ⟨b, -, h3⟩ := Chn.bind_eq_ok h2
  cases Except.ok.inj h3
  exact h1

theorem packed (ha : f.Reach a) : ∃ x out, (∀ pr, f.code.packed pr a = .ok (x, out)) ∧ f.Reach x ∧
    out.length = f.nbytes ∧ IsBytes out := by
  obtain ⟨x, hx, hx'⟩ := ha.normalize
  obtain ⟨x', out, h1, h2, h3, h4, h5⟩ := packed_value f .debug (Fld.Tight.rep ha.tight)
  refine ⟨x, out, fun pr => ?_, hx', h3, h4⟩
  obtain ⟨y', out', k1, k2, k3, k4, k5⟩ := packed_value f pr (Fld.Tight.rep ha.tight)
  rw [hx] at k2
  cases Except.ok.inj k2
  have hv : leVal out = ((leVal out).toNat : Int) := (Int.toNat_of_nonneg (leVal_nonneg h4)).symm
  have e1 := eq_leBytes k4 (v := (leVal out).toNat) (by rw [k5, ← h5]; exact hv)
  have e2 := eq_leBytes h4 hv
  rw [k3] at e1
  rw [h3] at e2
  rw [k1, e1, ← e2]

theorem hex (upper : Bool) (ha : f.Reach a) : ∃ s, ∀ pr, f.code.fmtHex pr upper a = .ok s := by
  obtain ⟨x, out, h1, -⟩ := ha.packed
  refine ⟨(out.reverse.map (FieldCode.hexByte upper)).flatten, fun pr => ?_⟩
  rw [FieldCode.fmtHex, h1]
  rfl

end Fld.Reach

section
variable {f : Fld} {rs : List Elem} (hrs : ∀ a ∈ rs, f.Reach a)

include hrs

theorem reach_getD (i : Nat) : f.Reach (rs.getD i f.code.ZERO) := by
  rw [List.getD_eq_getElem?_getD]
  by_cases hi : i < rs.length
  · rw [List.getElem?_eq_getElem hi]; exact hrs _ (List.getElem_mem hi)
  · rw [List.getElem?_eq_none (by omega)]; exact .zero f

theorem reach_set (i : Nat) {x : Elem} (hx : f.Reach x) : ∀ a ∈ rs.set i x, f.Reach a := by
  intro a ha
  rcases List.mem_or_eq_of_mem_set ha with h1 | rfl
  · exact hrs a h1
  · exact hx

theorem reach_snoc {x : Elem} (hx : f.Reach x) : ∀ a ∈ rs ++ [x], f.Reach a := by
  intro a ha
  rcases List.mem_append.mp ha with h1 | h1
  · exact hrs a h1
  · rw [List.mem_singleton.mp h1]; exact hx

theorem reach_op {o : Op} (ho : o.Valid f) : ∃ r, (∀ pr, o.exec f pr rs = .ok r) ∧ f.Reach r := by
  have key := reach_getD hrs
  choose e h1 h2 using key
  have hv := Op.ex_valid h1 ho
  have he := fun pr => Op.ex_exec (pr := pr) (fun i => h2 i pr)
    (fun i => Fld.Rep.isWords (Fld.Tight.rep (reach_getD hrs i).tight)) o
  obtain ⟨r, h3, -⟩ := C08_never_panics f _ hv
  exact ⟨r, fun pr => by rw [← he, h3], _, hv, h3⟩

end

/-- C62, elements only, all nine types: a client never panics, and all builds give it the same. -/
theorem C62_elements (f : Fld) {P : Op → Prop} {α : Type} (c : Client α) : ∀ {rs : List Elem}, c.Typed f P →
    (∀ a ∈ rs, f.Reach a) → ∃ x, ∀ pr, c.run f pr false rs = .ok x := by
  induction c with
  | done x => intro rs _ _; exact ⟨x, fun _ => rfl⟩
  | step o k ih =>
    intro rs ht hr
    obtain ⟨r, h1, h2⟩ := reach_op hr ht.2.1
    obtain ⟨x, h3⟩ := ih ht.2.2 (reach_snoc hr h2)
    refine ⟨x, fun pr => ?_⟩
    rw [Client.run, h1]
    exact h3 pr
  | normalize i k ih =>
    intro rs ht hr
    obtain ⟨r, h1, h2⟩ := (reach_getD hr i).normalize
    obtain ⟨x, h3⟩ := ih ht (reach_set hr i h2)
    refine ⟨x, fun pr => ?_⟩
    rw [Client.run, h1]
    exact h3 pr
  | eq i j k ih =>
    intro rs ht hr
    obtain ⟨y, z, b, h1, h2, h2'⟩ := (reach_getD hr i).eq (reach_getD hr j)
    obtain ⟨x, h3⟩ := ih b (ht b) (reach_set (reach_set hr i h2) j h2')
    refine ⟨x, fun pr => ?_⟩
    rw [Client.run, h1]
    exact h3 pr
  | bit i idx k ih =>
    intro rs ht hr
    obtain ⟨y, b, h1, h2⟩ := (reach_getD hr i).bit ht.1
    obtain ⟨x, h3⟩ := ih b (ht.2 b) (reach_set hr i h2)
    refine ⟨x, fun pr => ?_⟩
    rw [Client.run, h1]
    exact h3 pr
  | packed i k ih =>
    intro rs ht hr
    obtain ⟨y, out, h1, h2, h4, h5⟩ := (reach_getD hr i).packed
    obtain ⟨x, h3⟩ := ih out (ht out h4 h5) (reach_set hr i h2)
    refine ⟨x, fun pr => ?_⟩
    rw [Client.run, h1]
    exact h3 pr
  | hex upper i k ih =>
    intro rs ht hr
    obtain ⟨s, h1⟩ := (reach_getD hr i).hex upper
    obtain ⟨x, h3⟩ := ih s (ht s) hr
    refine ⟨x, fun pr => ?_⟩
    rw [Client.run, h1]
    exact h3 pr

/-! ### Points -/

section
variable {c : Crv} {pr : Profile} {ps : List (EdwardsExtended Elem)}

theorem zero_okT : (EdwardsExtended.zero (c.scalar pr)).Ok c.fld.Tight := by
  have z := (c.impl pr).zero.1
  have o := (c.impl pr).one.1
  exact ⟨z, o, o, o⟩

theorem getD_mem {β : Type} {Q : β → Prop} {l : List β} (hl : ∀ p ∈ l, Q p) (i : Nat) {z : β} (hz : Q z) : Q (l.getD i z) := by
  rw [List.getD_eq_getElem?_getD]
  by_cases hi : i < l.length
  · rw [List.getElem?_eq_getElem hi]; exact hl _ (List.getElem_mem hi)
  · rw [List.getElem?_eq_none (by omega)]; exact hz

theorem set_mem {β : Type} {Q : β → Prop} {l : List β} (hl : ∀ p ∈ l, Q p) (i : Nat) {x : β} (hx : Q x) :
    ∀ p ∈ l.set i x, Q p := by
  intro a ha
  rcases List.mem_or_eq_of_mem_set ha with h1 | rfl
  · exact hl a h1
  · exact hx

theorem store_mem {β : Type} {Q : β → Prop} {l : List β} (hl : ∀ p ∈ l, Q p) (d : Option Nat) {x : β} (hx : Q x) :
    ∀ p ∈ store d l x, Q p := by
  cases d with
  | none =>
    intro a ha
    rcases List.mem_append.mp ha with h1 | h1
    · exact hl a h1
    · rw [List.mem_singleton.mp h1]; exact hx
  | some i => exact set_mem hl i hx

theorem ladder_total {p : EdwardsExtended Elem} (hp : p.Ok c.fld.Tight) {k : Elem} (hk : c.fld.Tight k) :
    ∃ r, p.scalarMultNormalized (c.scalar pr) k = .ok r ∧ r.Ok c.fld.Tight := by
  obtain ⟨r, ev, h1, h2⟩ := C32_total c pr hp (k := k) ((rep_length (Fld.Tight.rep hk)).trans (by cases c <;> rfl))
  refine ⟨r, ?_, h2⟩
  rw [EdwardsExtended.scalarMultNormalized, h1]
  rfl

theorem PtOp.total (hps : ∀ p ∈ ps, p.Ok c.fld.Tight) {rs : List Elem} (hrs : ∀ a ∈ rs, c.fld.Reach a) (o : PtOp) :
    ∃ r, o.exec c pr rs ps = .ok r ∧ r.Ok c.fld.Tight := by
  have k := fun i => getD_mem hps i zero_okT (z := EdwardsExtended.zero (c.scalar pr))
  have e := fun i => (reach_getD hrs i).tight
  have o1 := (c.impl pr).one.1
  cases o with
  | zero => exact ⟨_, rfl, zero_okT⟩
  | copy p => exact ⟨_, rfl, k p⟩
  | init p i j => exact ⟨_, rfl, e i, e j, o1, o1⟩
  | addAssign p q => exact c.add_total pr (k p) (k q)
  | add p q => exact c.add_total pr (k p) (k q)
  | double p => exact c.double_total pr (k p)
  | doubled p => exact c.double_total pr (k p)
  | triple p => exact c.triple_total pr (k p)
  | tripled p => exact c.triple_total pr (k p)
  | multN p i => exact ladder_total (k p) (e i)

theorem scalarMult_total {p : EdwardsExtended Elem} (hp : p.Ok c.fld.Tight) {k k' : Elem} (hk : c.fld.Reach k)
    (hk' : c.fld.code.normalize pr k = .ok k') :
    ∃ r, p.scalarMult (c.scalar pr) k = .ok (r, k') ∧ r.Ok c.fld.Tight := by
  obtain ⟨k'', h1, h2⟩ := hk.normalize
  rw [h1] at hk'
  cases Except.ok.inj hk'
  obtain ⟨r, h3, h4⟩ := ladder_total (pr := pr) hp h2.tight
  refine ⟨r, ?_, h4⟩
  rw [EdwardsExtended.scalarMult, show (c.scalar pr).normalize k = .ok k' by rw [c.scalar_eq]; exact h1 pr]
  simp only [ok_bind, h3, pure_ok]

/-- Points cannot be seen: from any state that can be reached. -/
theorem CClient.run_erase {P : Op → Prop} {α : Type} (k : CClient α) : ∀ {rs : List Elem}
    {ps : List (EdwardsExtended Elem)}, k.erase.Typed c.fld P → (∀ a ∈ rs, c.fld.Reach a) →
    (∀ p ∈ ps, p.Ok c.fld.Tight) → k.run c pr rs ps = k.erase.run c.fld pr false rs := by
  induction k with
  | done x => intro rs ps _ _ _; rfl
  | step o k ih =>
    intro rs ps ht hr hp
    obtain ⟨r, h1, h2⟩ := reach_op hr ht.2.1
    rw [CClient.run, CClient.erase, Client.run, h1]
    exact ih ht.2.2 (reach_snoc hr h2) hp
  | normalize i k ih =>
    intro rs ps ht hr hp
    obtain ⟨r, h1, h2⟩ := (reach_getD hr i).normalize
    rw [CClient.run, CClient.erase, Client.run, h1]
    exact ih ht (reach_set hr i h2) hp
  | eq i j k ih =>
    intro rs ps ht hr hp
    obtain ⟨y, z, b, h1, h2, h2'⟩ := (reach_getD hr i).eq (reach_getD hr j)
    rw [CClient.run, CClient.erase, Client.run, h1]
    exact ih b (ht b) (reach_set (reach_set hr i h2) j h2') hp
  | bit i idx k ih =>
    intro rs ps ht hr hp
    obtain ⟨y, b, h1, h2⟩ := (reach_getD hr i).bit ht.1
    rw [CClient.run, CClient.erase, Client.run, h1]
    exact ih b (ht.2 b) (reach_set hr i h2) hp
  | packed i k ih =>
    intro rs ps ht hr hp
    obtain ⟨y, out, h1, h2, h4, h5⟩ := (reach_getD hr i).packed
    rw [CClient.run, CClient.erase, Client.run, h1]
    exact ih out (ht out h4 h5) (reach_set hr i h2) hp
  | hex upper i k ih =>
    intro rs ps ht hr hp
    obtain ⟨s, h1⟩ := (reach_getD hr i).hex upper
    rw [CClient.run, CClient.erase, Client.run, h1]
    exact ih s (ht s) hr hp
  | point o k ih =>
    intro rs ps ht hr hp
    obtain ⟨r, h1, h2⟩ := o.total (pr := pr) hp hr
    rw [CClient.run, h1]
    exact ih ht hr (store_mem hp _ h2)
  | mult p i k ih =>
    intro rs ps ht hr hp
    obtain ⟨y, h1, h2⟩ := (reach_getD hr i).normalize
    obtain ⟨r, h3, h4⟩ := scalarMult_total (getD_mem hp p zero_okT) (reach_getD hr i) (h1 pr)
    rw [CClient.run, CClient.erase, Client.run, h1, h3]
    exact ih ht (reach_set hr i h2) (set_mem hp p h4)

end

/-! ### The text -/

section
variable {P : Program} {c : Crv} (h : HasC P c) {w : World} (hw : w.curve = crvId c) {n : Nat} (hn : 12 ≤ n)

/-- `x` is the value of the interpreter for `y`, which is a point with the right number of words. -/
def ComputesPt (c : Crv) (x : Except Err Val) (y : Res (EdwardsExtended Elem)) : Prop :=
  x = (lift y >>= fun r => .ok (pt c r)) ∧ ∀ r, y = .ok r → Fits c.fld r

theorem ComputesPt.map {x : Except Err (Val × List Val)} {y : Res (EdwardsExtended Elem)}
    {o : EdwardsExtended Elem → Val × List Val} {s : Except Err (Val × List Val) → Except Err Val}
    (h : x = (lift y >>= fun r => .ok (o r))) (hs : ∀ e, s (.error e) = .error e)
    (ho : ∀ r, s (.ok (o r)) = .ok (pt c r)) (hl : ∀ r, y = .ok r → Fits c.fld r) : ComputesPt c (s x) y := by
  refine ⟨?_, hl⟩
  rw [h]
  cases y with
  | error e => exact hs _
  | ok r => exact ho r

theorem ladder_fits {pr : Profile} {p : EdwardsExtended Elem} (hp : Fits c.fld p) {k : Elem} {r : EdwardsExtended Elem}
    (e : p.scalarMultNormalized (c.scalar pr) k = .ok r) : Fits c.fld r := by
  rw [EdwardsExtended.scalarMultNormalized, EdwardsExtended.scalarMultNormalizedT] at e
  obtain ⟨v, e1, e⟩ := Chn.bind_eq_ok e
  obtain ⟨⟨s, ev⟩, e2, e1⟩ := Chn.bind_eq_ok e1
  cases Except.ok.inj e1
  cases Except.ok.inj e
  have hb : (c.scalar pr).nbits = c.fld.code.nbits := by rw [Crv.scalar_eq]; rfl
  rw [hb] at e2
  exact (iterate_ladder (has_crv c) (w := crvWorld c pr) rfl (Nat.le_refl 10) (k := k) (p := p) c.fld.code.nbits 0
    (by omega) _ (zero_fits pr) hp).2 _ e2

theorem getDPt (ps : List (EdwardsExtended Elem)) (i : Nat) (z : EdwardsExtended Elem) :
    (ps.map (pt c)).getD i (pt c z) = pt c (ps.getD i z) := by
  rw [List.getD_eq_getElem?_getD, List.getD_eq_getElem?_getD, List.getElem?_map]
  cases ps[i]? <;> rfl

theorem store_map {β γ : Type} (g : β → γ) (d : Option Nat) (l : List β) (x : β) :
    store d (l.map g) (g x) = (store d l x).map g := by
  cases d with
  | none => simp only [store, List.map_append]; rfl
  | some i => simp only [store, List.map_set]

include h hw hn

theorem PtOp.text_eq (o : PtOp) {rs : List Elem} (hrs : ∀ a ∈ rs, a.length = c.fld.code.limbs)
    {ps : List (EdwardsExtended Elem)} (hps : ∀ p ∈ ps, Fits c.fld p) :
    ComputesPt c (o.text P w n (elem (tyId c.fld) c.fld.code.ZERO) (pt c (EdwardsExtended.zero (c.scalar w.pr)))
      (rs.map (elem (tyId c.fld))) (ps.map (pt c))) (o.exec c w.pr rs ps) := by
  have k := fun i => getD_mem hps i (zero_fits w.pr)
  have l := fun i => getD_fits hrs i
  cases o <;> simp only [PtOp.text, PtOp.exec, getD_map, getDPt]
  case zero =>
    rw [(C55_constructors h hw hn (p := EdwardsExtended.zero (c.scalar w.pr)) [] []).1]
    exact ⟨rfl, fun r e => by rw [← Except.ok.inj e]; exact zero_fits w.pr⟩
  case copy p => exact ⟨rfl, fun r e => by rw [← Except.ok.inj e]; exact k p⟩
  case init p i j =>
    rw [(C55_constructors h hw hn _ _).2.1]
    refine ⟨rfl, fun r e => ?_⟩
    rw [← Except.ok.inj e]
    have z := zero_fits (c := c) w.pr
    exact ⟨l i, l j, z.z, z.t⟩
  case addAssign p q =>
    exact .map (C55_operators h hw hn (k p) (k q)).1 (fun _ => rfl) (fun _ => rfl) fun _ e => add_fits (k p) (k q) e
  case add p q =>
    exact .map (C55_operators h hw hn (k p) (k q)).2.2.1 (fun _ => rfl) (fun _ => rfl) fun _ e => add_fits (k p) (k q) e
  case double p =>
    exact .map (C55_formulas h hw hn (k p)).1 (fun _ => rfl) (fun _ => rfl) fun _ e => double_fits (k p) e
  case doubled p =>
    exact .map (C55_formulas h hw hn (k p)).2.1 (fun _ => rfl) (fun _ => rfl) fun _ e => double_fits (k p) e
  case triple p =>
    exact .map (C55_formulas h hw hn (k p)).2.2.1 (fun _ => rfl) (fun _ => rfl) fun _ e => triple_fits (k p) e
  case tripled p =>
    exact .map (C55_formulas h hw hn (k p)).2.2.2 (fun _ => rfl) (fun _ => rfl) fun _ e => triple_fits (k p) e
  case multN p i =>
    exact .map (C55_ladder h hw hn (k p)) (fun _ => rfl) (fun _ => rfl) fun _ e => ladder_fits (k p) e

/-- Clients of a curve: the text does what the model does, from any words. -/
theorem CClient.textFrom_eq {α : Type} (k : CClient α) : ∀ {rs : List Elem} {ps : List (EdwardsExtended Elem)},
    (∀ a ∈ rs, a.length = c.fld.code.limbs) → (∀ p ∈ ps, Fits c.fld p) →
    k.textFrom P w n c.fld (elem (tyId c.fld) c.fld.code.ZERO) (pt c (EdwardsExtended.zero (c.scalar w.pr)))
      (rs.map (elem (tyId c.fld))) (ps.map (pt c)) = lift (k.run c w.pr rs ps) := by
  induction k with
  | done x => intro rs ps _ _; rfl
  | step o k ih =>
    intro rs ps hr hp
    exact text_step h.fld w hn hr false o (K := fun l => k.textFrom P w n c.fld (elem (tyId c.fld) c.fld.code.ZERO)
        (pt c (EdwardsExtended.zero (c.scalar w.pr))) l (ps.map (pt c)))
      (K' := fun l => k.run c w.pr l ps) fun _ h => ih h hp
  | normalize i k ih =>
    intro rs ps hr hp
    exact text_normalize h.fld w hn hr i (K := fun l => k.textFrom P w n c.fld (elem (tyId c.fld) c.fld.code.ZERO)
        (pt c (EdwardsExtended.zero (c.scalar w.pr))) l (ps.map (pt c)))
      (K' := fun l => k.run c w.pr l ps) fun _ h => ih h hp
  | eq i j k ih =>
    intro rs ps hr hp
    exact text_eq h.fld w hn hr i j (K := fun b l => (k b).textFrom P w n c.fld (elem (tyId c.fld) c.fld.code.ZERO)
        (pt c (EdwardsExtended.zero (c.scalar w.pr))) l (ps.map (pt c)))
      (K' := fun b l => (k b).run c w.pr l ps) fun b _ h => ih b h hp
  | bit i idx k ih =>
    intro rs ps hr hp
    exact text_bit h.fld w hn hr i idx (K := fun b l => (k b).textFrom P w n c.fld (elem (tyId c.fld) c.fld.code.ZERO)
        (pt c (EdwardsExtended.zero (c.scalar w.pr))) l (ps.map (pt c)))
      (K' := fun b l => (k b).run c w.pr l ps) fun b _ h => ih b h hp
  | packed i k ih =>
    intro rs ps hr hp
    exact text_packed h.fld w hn hr i (K := fun b l => (k b).textFrom P w n c.fld (elem (tyId c.fld) c.fld.code.ZERO)
        (pt c (EdwardsExtended.zero (c.scalar w.pr))) l (ps.map (pt c)))
      (K' := fun b l => (k b).run c w.pr l ps) fun b _ h => ih b h hp
  | hex upper i k ih => intro rs ps hr hp; exact text_hex h.fld w hn hr upper i fun s => ih s hr hp
  | point o k ih =>
    intro rs ps hr hp
    obtain ⟨h1, h2⟩ := PtOp.text_eq h hw hn o hr hp
    rw [CClient.textFrom, CClient.run, h1]
    cases hx : o.exec c w.pr rs ps with
    | error e => rfl
    | ok x =>
      simp only [lift_ok, ok_bind, store_map]
      exact ih hr (store_mem hp _ (h2 x hx))
  | mult p i k ih =>
    intro rs ps hr hp
    have hq := getD_mem hp p (zero_fits (c := c) w.pr)
    have h1 := C55_scalar_mult h hw hn hq (getD_fits hr i)
    rw [CClient.textFrom, CClient.run, getD_map, getDPt, h1]
    cases hx : (ps.getD p (EdwardsExtended.zero (c.scalar w.pr))).scalarMult (c.scalar w.pr) (rs.getD i c.fld.code.ZERO) with
    | error e => rfl
    | ok x =>
      obtain ⟨x, y⟩ := x
      rw [EdwardsExtended.scalarMult] at hx
      obtain ⟨y', e1, hx⟩ := Chn.bind_eq_ok hx
      obtain ⟨x', e2, hx⟩ := Chn.bind_eq_ok hx
      cases Except.ok.inj hx
      have hy : y.length = c.fld.code.limbs := by
        rw [c.scalar_eq] at e1
        exact normalize_length e1
      simp only [lift_ok, ok_bind]
      show k.textFrom P w n c.fld _ _ ((rs.map (elem (tyId c.fld))).set i (elem (tyId c.fld) y))
        ((ps.map (pt c)).set p (pt c x)) = _
      rw [← List.map_set, ← List.map_set]
      exact ih (set_fits hr i hy) (set_mem hp p (ladder_fits hq e2))

/-- C62: what a client of a curve gets from the text is what it gets from the model. -/
theorem C62_model {α : Type} (k : CClient α) : k.text P w n c.fld = lift (k.run c w.pr [] []) := by
  rw [CClient.text, (computes_consts h.fld w hn).1.1,
    (C55_constructors h hw hn (p := EdwardsExtended.zero (c.scalar w.pr)) [] []).1]
  exact CClient.textFrom_eq h hw hn k (rs := []) (ps := []) nofun nofun

end

/-! ### C62 -/

section
variable (c : Crv) {α : Type} (k : CClient α) {P : Op → Prop} (hk : k.erase.Typed c.fld P)

include hk

/-- C62: the instructions on points cannot be seen.  What a client of a curve gets from the text is what the
client without points gets from the text of the field. -/
theorem C62_points_unseen {w : World} (hw : w.curve = crvId c) :
    k.text (crvProg c) w 12 c.fld = k.erase.text (src c.fld) w 12 c.fld false := by
  rw [C62_model (has_crv c) hw (Nat.le_refl 12), C59_client_model (has_src _) w (Nat.le_refl 12),
    CClient.run_erase k hk (rs := []) (ps := []) nofun nofun]

/-- C62: no client of a curve panics or is stuck, and all builds give it the same. -/
theorem C62_never_panics : ∃ x, ∀ w : World, w.curve = crvId c → k.text (crvProg c) w 12 c.fld = .ok x := by
  obtain ⟨x, h⟩ := C62_elements c.fld k.erase hk (rs := []) nofun
  refine ⟨x, fun w hw => ?_⟩
  rw [C62_points_unseen c k hk hw, C59_client_model (has_src _) w (Nat.le_refl 12), h]
  rfl

end

theorem Client.Typed.uses {f : Fld} {P : Op → Prop} {α : Type} {k : Client α} (h : k.Typed f P) : k.Uses f P := by
  induction k with
  | done => trivial
  | step o k ih => exact ⟨h.1, h.2.1, ih h.2.2⟩
  | normalize i k ih => exact ih h
  | eq i j k ih => exact fun b => ih b (h b)
  | bit i idx k ih => exact ⟨h.1, fun b => ih b (h.2 b)⟩
  | packed i k ih => exact fun out h1 h2 _ => ih out (h out h1 h2)
  | hex u i k ih => exact fun s => ih s (h s)

/-- C62, C53 for curves: a client of a curve whose instructions fit the field type gets what it would get with
residue classes for elements and no points. -/
theorem C62_client (c : Crv) {α : Type} (k : CClient α) (hk : k.erase.Typed c.fld (Op.Fits c.fld)) {w : World}
    (hw : w.curve = crvId c) : k.text (crvProg c) w 12 c.fld = .ok (k.erase.ideal c.fld []) := by
  rw [C62_points_unseen c k hk hw]
  exact C59_client _ w _ hk.uses

/-- C62: the same for clients that the interval analysis accepts. -/
theorem C62_client_analysed (c : Crv) {α : Type} (k : CClient α) (hk : k.erase.Typed c.fld fun _ => True)
    (hs : k.erase.Safe c.fld []) {w : World} (hw : w.curve = crvId c) :
    k.text (crvProg c) w 12 c.fld = .ok (k.erase.ideal c.fld []) := by
  rw [C62_points_unseen c k hk hw]
  exact C59_client_analysed _ w _ hs

/-- C62 without the restriction to fitting instructions: any client without `-` between elements. -/
def C62_statement : Prop := ∀ (c : Crv) (k : CClient Bool), k.erase.Typed c.fld Op.NotSub →
  ∀ w : World, w.curve = crvId c → k.text (crvProg c) w 12 c.fld = .ok (k.erase.ideal c.fld [])

/-- `lazyClient` of C53, which also adds a point to itself. -/
def lazyPoints : CClient Bool :=
  .step .zero <| .step (.subI 0 1) <| .point .zero <| .point (.init 0 0 1) <| .point (.add 0 0) <| .step .one <|
    .step (.mul 1 2) <| .step .mOne <| .eq 3 4 .done

/-- On E-222 a client is told that `(0 - 1i32) * 1` and `M_ONE` are different. -/
theorem C62_statement_false : ¬ C62_statement := by
  intro h
  have ht : lazyPoints.erase.Typed (Crv.fld .e222) Op.NotSub := by
    simp [lazyPoints, CClient.erase, Client.Typed, Op.NotSub, Op.Valid, IsI32]
  have h1 := h .e222 lazyPoints ht (crvWorld .e222 .debug) rfl
  rw [C62_points_unseen .e222 _ ht rfl, C59_client_model (has_src _) _ (Nat.le_refl 12)] at h1
  have h2 : lift (lazyPoints.erase.run (Crv.fld .e222) (crvWorld .e222 .debug).pr false []) = .ok false := by
    rw [show lazyPoints.erase.run (Crv.fld .e222) (crvWorld .e222 .debug).pr false [] = .ok false by decide +kernel]
    rfl
  rw [h2] at h1
  have h3 := Except.ok.inj h1
  revert h3
  simp [lazyPoints, CClient.erase, Client.ideal, Op.ideal]

/-! ### Examples -/

/-- Two parties with a common point multiply it by their scalars, which are normalized by this, and each multiplies
the result of the other; at the end the first scalar is packed. -/
def handshake (a b x y : List Int) : CClient (List Int) :=
  .step (.bytes a) <| .step (.bytes b) <| .step (.bytes x) <| .step (.bytes y) <|
  .point .zero <| .point (.init 0 2 3) <| .point (.copy 0) <|
  .mult 0 0 <| .mult 1 1 <| .mult 0 1 <| .mult 1 0 <| .point (.addAssign 0 1) <| .point (.tripled 0) <|
  .packed 0 .done

theorem handshake_typed (f : Fld) (hf : f ≠ .e383_187) {a b x y : List Int}
    (h : ∀ l ∈ [a, b, x, y], IsBytes l ∧ f.nbytes ≤ l.length) : (handshake a b x y).erase.Typed f (Op.Fits f) := by
  have v := fun l hl => (⟨(h l hl).1, (h l hl).2, fun e => absurd e hf⟩ : Op.Valid f (.bytes l))
  exact ⟨trivial, v a (by simp), trivial, v b (by simp), trivial, v x (by simp), trivial, v y (by simp),
    fun _ _ _ => trivial⟩

/-- The handshake meets the hypotheses of `C62_never_panics` on all five curves. -/
example (c : Crv) : ∃ out, ∀ w : World, w.curve = crvId c → (handshake (List.replicate 66 201) (List.replicate 66 5)
    (List.replicate 66 3) (List.replicate 66 255)).text (crvProg c) w 12 c.fld = .ok out :=
  C62_never_panics c _ (handshake_typed _ (by cases c <;> decide) (by
    intro l hl
    have hb : c.fld.nbytes ≤ 66 := by cases c <;> decide
    simp only [List.mem_cons, List.not_mem_nil, or_false] at hl
    rcases hl with rfl | rfl | rfl | rfl <;> exact ⟨by simp [IsBytes], by simpa using hb⟩))

/-- The handshake, for all scalars and all coordinates: it gives back the first scalar, reduced. -/
theorem C62_handshake (c : Crv) {a b x y : List Int}
    (h : ∀ l ∈ [a, b, x, y], IsBytes l ∧ c.fld.nbytes ≤ l.length) {w : World} (hw : w.curve = crvId c) :
    (handshake a b x y).text (crvProg c) w 12 c.fld =
      .ok (leBytes c.fld.nbytes (leVal (a.take c.fld.nbytes) % 2 ^ c.fld.n % c.fld.p).toNat) := by
  rw [C62_client c _ (handshake_typed _ (by cases c <;> decide) h) hw]
  show Except.ok (leBytes _ ((leVal (a.take c.fld.nbytes) % 2 ^ c.fld.n : Int) : ZMod c.fld.pN).val) = _
  rw [Fld.p_eq, ← ZMod.val_intCast, Int.toNat_natCast]

end Verif
