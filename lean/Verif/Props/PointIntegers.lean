import Verif.Curve.PointInt
import Verif.Props.Integers

/-!
# C65: exactly the points that every program makes

C64 says what a program that uses a curve is told.  It is told nothing about points, which cannot be seen.  Here
it is said what is in its variables when it ends: the machine on integers of C64 is extended by the points, with
every operation of `edwards.rs` as an explicit function of the integers of the coordinates (`Curve/PointInt.lean`).  This
holds on all five curves for all coordinates and scalars, whether or not they belong to points of the curve and
whether or not the operations are right.
-/

namespace Verif
open Fld FieldCode Rust EdwardsExtended

/-! ### The machine on integers -/

/-- What an instruction on points makes. -/
def PtOp.int (c : Crv) (xs : List Int) (ps : List (EdwardsExtended Int)) (o : PtOp) : EdwardsExtended Int :=
  let x := fun i => xs.getD i 0
  let q := fun p => ps.getD p ⟨0, 1, 1, 1⟩
  match o with
  | zero => ⟨0, 1, 1, 1⟩
  | copy p => q p
  | init _ i j => ⟨x i, x j, 1, 1⟩
  | addAssign p p' => c.sumInt (q p) (q p')
  | add p p' => c.sumInt (q p) (q p')
  | double p => c.dblInt (q p)
  | doubled p => c.dblInt (q p)
  | triple p => c.triInt (q p)
  | tripled p => c.triInt (q p)
  | multN p i => c.multInt (q p) (x i)

/-- A client of a curve on integers: what it returns and what is in its variables at the end; `none` is a panic. -/
def CClient.int (c : Crv) {α : Type} : CClient α → List Int → List (EdwardsExtended Int) →
    Option (α × List Int × List (EdwardsExtended Int))
  | done x, xs, ps => some (x, xs, ps)
  | step o k, xs, ps => (o.int c.fld xs).bind fun x => k.int c (xs ++ [x]) ps
  | normalize i k, xs, ps => k.int c (xs.set i (c.fld.normVal (xs.getD i 0))) ps
  | eq i j k, xs, ps =>
    let x := c.fld.normVal (xs.getD i 0)
    let y := c.fld.normVal (xs.getD j 0)
    (k (decide (x = y))).int c ((xs.set i x).set j y) ps
  | bit i idx k, xs, ps =>
    let x := c.fld.normVal (xs.getD i 0)
    if idx < c.fld.L * c.fld.k then (k (decide (x / 2 ^ idx % 2 = 1))).int c (xs.set i x) ps else none
  | packed i k, xs, ps =>
    let x := c.fld.normVal (xs.getD i 0)
    (k (leBytes c.fld.nbytes (x % 2 ^ c.fld.ubits).toNat)).int c (xs.set i x) ps
  | hex upper i k, xs, ps =>
    (k (hexDigits upper c.fld.nbytes (c.fld.normVal (xs.getD i 0) % 2 ^ c.fld.ubits).toNat)).int c xs ps
  | point o k, xs, ps => k.int c xs (store o.dest ps (o.int c xs ps))
  | mult p i k, xs, ps =>
    let x := c.fld.normVal (xs.getD i 0)
    k.int c (xs.set i x) (ps.set p (c.multInt (ps.getD p ⟨0, 1, 1, 1⟩) x))

/-! ### Running clients to the end -/

/-- As `CClient.run`, and what is in the variables at the end. -/
def CClient.finish (c : Crv) (pr : Profile) {α : Type} : CClient α → List Elem → List (EdwardsExtended Elem) →
    Res (α × List Elem × List (EdwardsExtended Elem))
  | done x, rs, ps => .ok (x, rs, ps)
  | step o k, rs, ps => do
    let x ← o.exec c.fld pr rs
    k.finish c pr (rs ++ [x]) ps
  | normalize i k, rs, ps => do
    k.finish c pr (rs.set i (← c.fld.code.normalize pr (rs.getD i c.fld.code.ZERO))) ps
  | eq i j k, rs, ps => do
    let (x, y, b) ← c.fld.code.normalizeEq pr (rs.getD i c.fld.code.ZERO) (rs.getD j c.fld.code.ZERO)
    (k b).finish c pr ((rs.set i x).set j y) ps
  | bit i idx k, rs, ps => do
    let (x, b) ← c.fld.code.bit pr (rs.getD i c.fld.code.ZERO) idx
    (k b).finish c pr (rs.set i x) ps
  | packed i k, rs, ps => do
    let (x, out) ← c.fld.code.packed pr (rs.getD i c.fld.code.ZERO)
    (k out).finish c pr (rs.set i x) ps
  | hex upper i k, rs, ps => do
    let s ← c.fld.code.fmtHex pr upper (rs.getD i c.fld.code.ZERO)
    (k s).finish c pr rs ps
  | point o k, rs, ps => do
    let x ← o.exec c pr rs ps
    k.finish c pr rs (store o.dest ps x)
  | mult p i k, rs, ps => do
    let (x, y) ← (ps.getD p (zero (c.scalar pr))).scalarMult (c.scalar pr) (rs.getD i c.fld.code.ZERO)
    k.finish c pr (rs.set i y) (ps.set p x)

section
variable (P : Program) (w : World) (n : Nat) (f : Fld)

/-- As `CClient.textFrom`, and what is in the variables at the end. -/
def CClient.textEnd (z zp : Val) {α : Type} : CClient α → List Val → List Val → Except Err (α × List Val × List Val)
  | done x, rs, ps => .ok (x, rs, ps)
  | step o k, rs, ps => do
    let x ← o.text P w n f z rs
    k.textEnd z zp (rs ++ [x]) ps
  | normalize i k, rs, ps => do
    k.textEnd z zp (rs.set i (← txtM P w n f (id! "normalize") (rs.getD i z))) ps
  | eq i j k, rs, ps => do
    let r ← callFn P w n (tyId f) (id! "normalize_eq") [.ref (rs.getD i z), .ref (rs.getD j z)]
    let b ← seeBool r.1
    (k b).textEnd z zp ((rs.set i (r.2.getD 0 .unit).strip).set j (r.2.getD 1 .unit).strip) ps
  | bit i idx k, rs, ps => do
    let r ← callFn P w n (tyId f) (id! "bit") [.ref (rs.getD i z), usize idx]
    let b ← seeBool r.1
    (k b).textEnd z zp (rs.set i (r.2.getD 0 .unit).strip) ps
  | packed i k, rs, ps => do
    let r ← callFn P w n (tyId f) (id! "packed") [.ref (rs.getD i z)]
    let out ← seeBytes r.1
    (k out).textEnd z zp (rs.set i (r.2.getD 0 .unit).strip) ps
  | hex upper i k, rs, ps => do
    let s ← txtH P w n f upper (rs.getD i z)
    (k s).textEnd z zp rs ps
  | point o k, rs, ps => do
    let x ← o.text P w n z zp rs ps
    k.textEnd z zp rs (store o.dest ps x)
  | mult p i k, rs, ps => do
    let r ← callPt P w n (id! "scalar_mult") [.ref (ps.getD p zp), .ref (rs.getD i z)]
    k.textEnd z zp (rs.set i (r.2.getD 1 .unit).strip) (ps.set p (r.2.getD 0 .unit).strip)

/-- Run a client of a curve from the start to the end. -/
def CClient.textVars {α : Type} (k : CClient α) : Except Err (α × List Val × List Val) := do
  let z ← txt0 P w n f (id! "zero")
  let zp ← ret (callPt P w n (id! "zero") [])
  k.textEnd P w n f z zp [] []

end

/-- All arguments of the instructions the client can come to have the Rust types. -/
def CClient.Args (f : Fld) {α : Type} : CClient α → Prop
  | done _ => True
  | step o k => o.Args ∧ k.Args f
  | normalize _ k => k.Args f
  | eq _ _ k => ∀ b, (k b).Args f
  | bit _ _ k => ∀ b, (k b).Args f
  | packed _ k => ∀ out, out.length = f.nbytes → IsBytes out → (k out).Args f
  | hex _ _ k => ∀ s, (k s).Args f
  | point _ k => k.Args f
  | mult _ _ k => k.Args f

/-! ### Proofs -/

section
variable {c : Crv} {pr : Profile}

theorem getD_ints (ps : List (EdwardsExtended Elem)) (i : Nat) :
    (ps.map (ints c)).getD i ⟨0, 1, 1, 1⟩ = (ps.getD i (zero (c.scalar pr))).ints c := by
  rw [List.getD_eq_getElem?_getD, List.getD_eq_getElem?_getD, List.getElem?_map]
  cases ps[i]? with
  | some a => rfl
  | none => exact Crv.zero_ints.symm

theorem getD_okT {ps : List (EdwardsExtended Elem)} (hps : ∀ p ∈ ps, p.Ok c.fld.Tight) (i : Nat) :
    (ps.getD i (zero (c.scalar pr))).Ok c.fld.Tight := getD_mem hps i zero_okT

/-- An instruction on points does on words what it does on integers. -/
theorem PtOp.int_sound {rs : List Elem} (hrs : ∀ a ∈ rs, c.fld.Tight a) {ps : List (EdwardsExtended Elem)}
    (hps : ∀ p ∈ ps, p.Ok c.fld.Tight) (o : PtOp) :
    ∃ r, o.exec c pr rs ps = .ok r ∧ r.Ok c.fld.Tight ∧ r.ints c = o.int c (rs.map c.fld.V) (ps.map (ints c)) := by
  have k := getD_okT (pr := pr) hps
  have e := getD_tight hrs
  have o1 := one_canon c.fld
  cases o with
  | zero => exact ⟨_, rfl, zero_okT, Crv.zero_ints⟩
  | copy p => exact ⟨_, rfl, k p, (getD_ints ps p).symm⟩
  | init p i j =>
    refine ⟨_, rfl, ⟨e i, e j, ?_, ?_⟩, ?_⟩
    · exact (c.impl pr).one.1
    · exact (c.impl pr).one.1
    · have : c.fld.V (c.scalar pr).one = 1 := by rw [c.scalar_eq]; exact o1.2.1
      simp only [EdwardsExtended.init, ints, PtOp.int, getD_int, this]
  | addAssign p q => simp only [PtOp.int, getD_ints (pr := pr)]; exact Crv.sum_int (k p) (k q)
  | add p q => simp only [PtOp.int, getD_ints (pr := pr)]; exact Crv.sum_int (k p) (k q)
  | double p => simp only [PtOp.int, getD_ints (pr := pr)]; exact Crv.dbl_int (k p)
  | doubled p => simp only [PtOp.int, getD_ints (pr := pr)]; exact Crv.dbl_int (k p)
  | triple p => simp only [PtOp.int, getD_ints (pr := pr)]; exact Crv.tri_int (k p)
  | tripled p => simp only [PtOp.int, getD_ints (pr := pr)]; exact Crv.tri_int (k p)
  | multN p i => simp only [PtOp.int, getD_ints (pr := pr), getD_int]; exact Crv.multN_int (k p) (e i)

/-- What a client ends with: the words of the integers. -/
def Ends (c : Crv) {α : Type} (x : Res (α × List Elem × List (EdwardsExtended Elem))) :
    Option (α × List Int × List (EdwardsExtended Int)) → Prop
  | some (v, xs, ps) => ∃ rs qs, x = .ok (v, rs, qs) ∧ (∀ a ∈ rs, c.fld.Tight a) ∧ (∀ q ∈ qs, q.Ok c.fld.Tight) ∧
      rs.map c.fld.V = xs ∧ qs.map (ints c) = ps
  | none => ∃ e, x = .error e

theorem store_ints (d : Option Nat) (ps : List (EdwardsExtended Elem)) (x : EdwardsExtended Elem) :
    store d (ps.map (ints c)) (x.ints c) = (store d ps x).map (ints c) := store_map _ _ _ _

theorem CClient.int_sound {α : Type} (k : CClient α) : ∀ {rs : List Elem} {ps : List (EdwardsExtended Elem)},
    k.Args c.fld → (∀ a ∈ rs, c.fld.Tight a) → (∀ p ∈ ps, p.Ok c.fld.Tight) →
    Ends c (k.finish c pr rs ps) (k.int c (rs.map c.fld.V) (ps.map (ints c))) := by
  induction k with
  | done x => intro rs ps _ hr hp; exact ⟨rs, ps, rfl, hr, hp, rfl, rfl⟩
  | step o k ih =>
    intro rs ps hu h hp
    have h1 := Op.int_sound (pr := pr) h hu.1
    rw [CClient.int]
    cases ho : o.int c.fld (rs.map c.fld.V) with
    | none =>
      rw [ho] at h1
      obtain ⟨e, h1⟩ := h1
      refine ⟨e, ?_⟩
      rw [CClient.finish, h1]; rfl
    | some v =>
      rw [ho] at h1
      obtain ⟨a, h1, h2, h3⟩ := h1
      rw [CClient.finish, h1]
      have := ih hu.2 (rs := rs ++ [a]) (ps := ps) (by
        intro b hb
        rcases List.mem_append.1 hb with hb | hb
        · exact h b hb
        · rw [List.mem_singleton.1 hb]; exact h2) hp
      rw [List.map_append, List.map_singleton, h3] at this
      exact this
  | normalize i k ih =>
    intro rs ps hu h hp
    have t := getD_tight h i
    obtain ⟨r, h1, h2, h3⟩ := C09_normalize_value c.fld pr t.rep
    rw [CClient.finish, CClient.int, getD_int, h1, ← h3, map_set_int]
    exact ih hu (set_mem h i h2) hp
  | eq i j k ih =>
    intro rs ps hu h hp
    have ti := getD_tight h i
    have tj := getD_tight h j
    obtain ⟨x, h1, h2, h3⟩ := C09_normalize_value c.fld pr ti.rep
    obtain ⟨y, h4, h5, h6⟩ := C09_normalize_value c.fld pr tj.rep
    obtain ⟨x', y', b, h7, h8⟩ := C10_normalize_eq_exact c.fld pr ti.rep tj.rep
    have h9 := h7
    simp only [FieldCode.normalizeEq, FieldCode.normalizeSelfEq, h1, h4, bind, Except.bind, pure,
      Except.pure] at h9
    obtain ⟨rfl, h10⟩ := Prod.mk.inj (Except.ok.inj h9)
    obtain ⟨rfl, -⟩ := Prod.mk.inj h10
    have hb : b = decide (c.fld.normVal (c.fld.V (rs.getD i c.fld.code.ZERO)) =
        c.fld.normVal (c.fld.V (rs.getD j c.fld.code.ZERO))) := by
      rw [Bool.eq_iff_iff, h8, decide_eq_true_eq]
    rw [CClient.finish, CClient.int, h7]
    simp only [getD_int]
    rw [← hb, ← h3, ← h6, map_set_int, map_set_int]
    exact ih b (hu b) (set_mem (set_mem h i h2) j h5) hp
  | bit i idx k ih =>
    intro rs ps hu h hp
    have t := getD_tight h i
    obtain ⟨x, h1, h2, h3⟩ := C09_normalize_value c.fld pr t.rep
    rw [CClient.finish, CClient.int]
    simp only [getD_int]
    by_cases hi : idx < c.fld.L * c.fld.k
    · rw [if_pos hi]
      obtain ⟨x', h4⟩ := C20_bit_exact c.fld pr t.rep hi
      have h5 := h4
      rw [FieldCode.bit, h1] at h5
      simp only [ok_bind] at h5
      obtain ⟨b, -, h6⟩ := Chn.bind_eq_ok h5
      obtain ⟨rfl, -⟩ := Prod.mk.inj (Except.ok.inj h6)
      rw [h4, ← h3, map_set_int]
      exact ih _ (hu _) (set_mem h i h2) hp
    · rw [if_neg hi]
      have hL : 0 < c.fld.L := by cases c <;> decide
      have hl : x.length ≤ idx / c.fld.L := by
        rw [Shape.length h2, Nat.le_div_iff_mul_le hL, mul_comm]
        omega
      refine ⟨.index, ?_⟩
      simp only [FieldCode.bit, h1, FieldCode.bitNormalized, limbBits_eq, List.getElem?_eq_none hl, bind,
        Except.bind]
  | packed i k ih =>
    intro rs ps hu h hp
    have t := getD_tight h i
    obtain ⟨x, h1, h2, h3⟩ := C09_normalize_value c.fld pr t.rep
    obtain ⟨x', out, h4, h5, h6, h7, h8⟩ := packed_value c.fld pr t.rep
    obtain rfl := Except.ok.inj (h1.symm.trans h5)
    rw [CClient.finish, CClient.int, h4]
    simp only [getD_int]
    have e := eq_leBytes h7 (v := (c.fld.normVal (c.fld.V (rs.getD i c.fld.code.ZERO)) % 2 ^ c.fld.ubits).toNat) (by
      rw [h8]; exact (Int.toNat_of_nonneg (Int.emod_nonneg _ (by positivity))).symm)
    rw [h6] at e
    rw [← e, ← h3, map_set_int]
    exact ih out (hu out h6 h7) (set_mem h i h2) hp
  | hex upper i k ih =>
    intro rs ps hu h hp
    have t := getD_tight h i
    obtain ⟨x', out, h4, h5, h6, h7, h8⟩ := packed_value c.fld pr t.rep
    have e := eq_leBytes h7 (v := (c.fld.normVal (c.fld.V (rs.getD i c.fld.code.ZERO)) % 2 ^ c.fld.ubits).toNat) (by
      rw [h8]; exact (Int.toNat_of_nonneg (Int.emod_nonneg _ (by positivity))).symm)
    rw [h6] at e
    have hs : c.fld.code.fmtHex pr upper (rs.getD i c.fld.code.ZERO) =
        .ok (hexDigits upper c.fld.nbytes
          (c.fld.normVal (c.fld.V (rs.getD i c.fld.code.ZERO)) % 2 ^ c.fld.ubits).toNat) := by
      rw [FieldCode.fmtHex, h4, ← hex_leBytes, ← e]
      rfl
    rw [CClient.finish, CClient.int, hs]
    simp only [getD_int]
    exact ih _ (hu _) h hp
  | point o k ih =>
    intro rs ps hu h hp
    obtain ⟨r, h1, h2, h3⟩ := o.int_sound (pr := pr) h hp
    rw [CClient.finish, CClient.int, h1, ← h3, store_ints]
    exact ih hu h (store_mem hp _ h2)
  | mult p i k ih =>
    intro rs ps hu h hp
    obtain ⟨r, k', h1, h2, h3, h4, h5⟩ := Crv.mult_int (pr := pr) (getD_okT (pr := pr) hp p) (getD_tight h i)
    rw [CClient.finish, CClient.int, h1]
    simp only [getD_int, getD_ints (pr := pr)]
    rw [← h5, ← h4, map_set_int, ← List.map_set]
    exact ih hu (set_mem h i h3) (set_mem hp p h2)

theorem CClient.run_finish {α : Type} (k : CClient α) : ∀ (rs : List Elem) (ps : List (EdwardsExtended Elem)),
    k.run c pr rs ps = (k.finish c pr rs ps).map (·.1) := by
  have key : ∀ {β γ δ : Type} (x : Res β) (g : β → Res γ) (t : γ → δ), (x >>= g).map t = x >>= fun b => (g b).map t := by
    intro β γ δ x g t
    cases x <;> rfl
  induction k with
  | done x => intro rs ps; rfl
  | step o k ih => intro rs ps; simp only [CClient.run, CClient.finish, key, ih]
  | normalize i k ih => intro rs ps; simp only [CClient.run, CClient.finish, key, ih]
  | eq i j k ih => intro rs ps; simp only [CClient.run, CClient.finish, key, ih]
  | bit i idx k ih => intro rs ps; simp only [CClient.run, CClient.finish, key, ih]
  | packed i k ih => intro rs ps; simp only [CClient.run, CClient.finish, key, ih]
  | hex upper i k ih => intro rs ps; simp only [CClient.run, CClient.finish, key, ih]
  | point o k ih => intro rs ps; simp only [CClient.run, CClient.finish, key, ih]
  | mult p i k ih => intro rs ps; simp only [CClient.run, CClient.finish, key, ih]

theorem V_map_inj {f : Fld} : ∀ {l m : List Elem}, (∀ a ∈ l, f.Tight a) → (∀ a ∈ m, f.Tight a) → l.map f.V = m.map f.V →
    l = m
  | [], [], _, _, _ => rfl
  | [], _ :: _, _, _, h => by cases h
  | _ :: _, [], _, _, h => by cases h
  | a :: l, b :: m, hl, hm, h => by
    simp only [List.map_cons, List.cons.injEq] at h
    rw [Shape.ext (hl a (by simp)) (hm b (by simp)) h.1,
      V_map_inj (fun x hx => hl x (by simp [hx])) (fun x hx => hm x (by simp [hx])) h.2]

theorem ints_inj {p q : EdwardsExtended Elem} (hp : p.Ok c.fld.Tight) (hq : q.Ok c.fld.Tight)
    (h : p.ints c = q.ints c) : p = q := by
  obtain ⟨x, y, z, t⟩ := p
  obtain ⟨x', y', z', t'⟩ := q
  obtain ⟨a1, a2, a3, a4⟩ := hp
  obtain ⟨b1, b2, b3, b4⟩ := hq
  simp only [ints, EdwardsExtended.mk.injEq] at h
  obtain rfl : x = x' := Shape.ext a1 b1 h.1
  obtain rfl : y = y' := Shape.ext a2 b2 h.2.1
  obtain rfl : z = z' := Shape.ext a3 b3 h.2.2.1
  obtain rfl : t = t' := Shape.ext a4 b4 h.2.2.2
  rfl

theorem ints_map_inj : ∀ {l m : List (EdwardsExtended Elem)}, (∀ a ∈ l, a.Ok c.fld.Tight) → (∀ a ∈ m, a.Ok c.fld.Tight) →
    l.map (ints c) = m.map (ints c) → l = m
  | [], [], _, _, _ => rfl
  | [], _ :: _, _, _, h => by cases h
  | _ :: _, [], _, _, h => by cases h
  | a :: l, b :: m, hl, hm, h => by
    simp only [List.map_cons, List.cons.injEq] at h
    rw [ints_inj (hl a (by simp)) (hm b (by simp)) h.1,
      ints_map_inj (fun x hx => hl x (by simp [hx])) (fun x hx => hm x (by simp [hx])) h.2]

end

/-! ### The text -/

section
variable {P : Program} {c : Crv} (h : HasC P c) {w : World} (hw : w.curve = crvId c) {n : Nat} (hn : 12 ≤ n)

/-- The values of the interpreter for the variables. -/
def vars (c : Crv) {α : Type} (r : α × List Elem × List (EdwardsExtended Elem)) : α × List Val × List Val :=
  (r.1, r.2.1.map (elem (tyId c.fld)), r.2.2.map (pt c))

theorem map_bind {β γ δ : Type} (x : Res β) (g : β → Res γ) (t : γ → δ) :
    (x >>= g).map t = x >>= fun b => (g b).map t := by
  cases x <;> rfl

include h hw hn

theorem CClient.textEnd_eq {α : Type} (k : CClient α) : ∀ {rs : List Elem} {ps : List (EdwardsExtended Elem)},
    (∀ a ∈ rs, a.length = c.fld.code.limbs) → (∀ p ∈ ps, Fits c.fld p) →
    k.textEnd P w n c.fld (elem (tyId c.fld) c.fld.code.ZERO) (pt c (zero (c.scalar w.pr)))
      (rs.map (elem (tyId c.fld))) (ps.map (pt c)) = lift ((k.finish c w.pr rs ps).map (vars c)) := by
  induction k with
  | done x => intro rs ps _ _; rfl
  | step o k ih =>
    intro rs ps hr hp
    rw [CClient.finish, map_bind]
    exact text_step h.fld w hn hr false o (K := fun l => k.textEnd P w n c.fld (elem (tyId c.fld) c.fld.code.ZERO)
        (pt c (zero (c.scalar w.pr))) l (ps.map (pt c)))
      (K' := fun l => (k.finish c w.pr l ps).map (vars c)) fun _ h => ih h hp
  | normalize i k ih =>
    intro rs ps hr hp
    rw [CClient.finish, map_bind]
    exact text_normalize h.fld w hn hr i (K := fun l => k.textEnd P w n c.fld (elem (tyId c.fld) c.fld.code.ZERO)
        (pt c (zero (c.scalar w.pr))) l (ps.map (pt c)))
      (K' := fun l => (k.finish c w.pr l ps).map (vars c)) fun _ h => ih h hp
  | eq i j k ih =>
    intro rs ps hr hp
    rw [CClient.finish, map_bind]
    exact text_eq h.fld w hn hr i j (K := fun b l => (k b).textEnd P w n c.fld (elem (tyId c.fld) c.fld.code.ZERO)
        (pt c (zero (c.scalar w.pr))) l (ps.map (pt c)))
      (K' := fun b l => ((k b).finish c w.pr l ps).map (vars c)) fun b _ h => ih b h hp
  | bit i idx k ih =>
    intro rs ps hr hp
    rw [CClient.finish, map_bind]
    exact text_bit h.fld w hn hr i idx (K := fun b l => (k b).textEnd P w n c.fld (elem (tyId c.fld) c.fld.code.ZERO)
        (pt c (zero (c.scalar w.pr))) l (ps.map (pt c)))
      (K' := fun b l => ((k b).finish c w.pr l ps).map (vars c)) fun b _ h => ih b h hp
  | packed i k ih =>
    intro rs ps hr hp
    rw [CClient.finish, map_bind]
    exact text_packed h.fld w hn hr i (K := fun b l => (k b).textEnd P w n c.fld (elem (tyId c.fld) c.fld.code.ZERO)
        (pt c (zero (c.scalar w.pr))) l (ps.map (pt c)))
      (K' := fun b l => ((k b).finish c w.pr l ps).map (vars c)) fun b _ h => ih b h hp
  | hex upper i k ih =>
    intro rs ps hr hp
    rw [CClient.finish, map_bind]
    exact text_hex h.fld w hn hr upper i fun s => ih s hr hp
  | point o k ih =>
    intro rs ps hr hp
    obtain ⟨h1, h2⟩ := PtOp.text_eq h hw hn o hr hp
    rw [CClient.textEnd, CClient.finish, h1]
    cases hx : o.exec c w.pr rs ps with
    | error e => rfl
    | ok x =>
      simp only [lift_ok, ok_bind, store_map]
      exact ih hr (store_mem hp _ (h2 x hx))
  | mult p i k ih =>
    intro rs ps hr hp
    have hq := getD_mem hp p (zero_fits (c := c) w.pr)
    have h1 := C55_scalar_mult h hw hn hq (getD_fits hr i)
    rw [CClient.textEnd, CClient.finish, getD_map, getDPt, h1]
    cases hx : (ps.getD p (zero (c.scalar w.pr))).scalarMult (c.scalar w.pr) (rs.getD i c.fld.code.ZERO) with
    | error e => rfl
    | ok x =>
      obtain ⟨x, y⟩ := x
      rw [EdwardsExtended.scalarMult] at hx
      obtain ⟨y', e1, hx⟩ := Chn.bind_eq_ok hx
      obtain ⟨x', e2, hx⟩ := Chn.bind_eq_ok hx
      cases Except.ok.inj hx
      have hy : y.length = c.fld.code.limbs := by
        rw [c.scalar_eq] at e1
        exact normalize_length e1
      simp only [lift_ok, ok_bind]
      show k.textEnd P w n c.fld _ _ ((rs.map (elem (tyId c.fld))).set i (elem (tyId c.fld) y))
        ((ps.map (pt c)).set p (pt c x)) = _
      rw [← List.map_set, ← List.map_set]
      exact ih (set_fits hr i hy) (set_mem hp p (ladder_fits hq e2))

theorem CClient.textVars_eq {α : Type} (k : CClient α) :
    k.textVars P w n c.fld = lift ((k.finish c w.pr [] []).map (vars c)) := by
  rw [CClient.textVars, (computes_consts h.fld w hn).1.1,
    (C55_constructors h hw hn (p := zero (c.scalar w.pr)) [] []).1]
  exact CClient.textEnd_eq h hw hn k (rs := []) (ps := []) nofun nofun

end

/-! ### C65 -/

/-- C65: on all five curves, in all builds, a client whose arguments have the Rust types is answered as by the machine on
integers, ends with the words of its integers and points, and panics exactly when it does. -/
theorem C65_client (c : Crv) (pr : Profile) {α : Type} (k : CClient α) (hk : k.Args c.fld) {rs : List Elem}
    (hr : ∀ a ∈ rs, c.fld.Tight a) {ps : List (EdwardsExtended Elem)} (hp : ∀ p ∈ ps, p.Ok c.fld.Tight) :
    Ends c (k.finish c pr rs ps) (k.int c (rs.map c.fld.V) (ps.map (ints c))) :=
  k.int_sound hk hr hp

/-- C65 for the text: in all builds the same words. -/
theorem C65_text (c : Crv) {α : Type} (k : CClient α) (hk : k.Args c.fld) :
    match k.int c [] [] with
    | some (x, xs, is) => ∃ (rs : List Elem) (ps : List (EdwardsExtended Elem)), (∀ a ∈ rs, c.fld.Tight a) ∧ (∀ p ∈ ps, p.Ok c.fld.Tight) ∧
        rs.map c.fld.V = xs ∧ ps.map (ints c) = is ∧
        ∀ w : World, w.curve = crvId c → k.textVars (crvProg c) w 12 c.fld =
          .ok (x, rs.map (elem (tyId c.fld)), ps.map (pt c))
    | none => ∀ w : World, w.curve = crvId c → ∃ e, k.textVars (crvProg c) w 12 c.fld = .error (.panic e) := by
  have h := fun pr => C65_client c pr k hk (rs := []) (ps := []) nofun nofun
  simp only [List.map_nil] at h
  cases hx : k.int c [] [] with
  | some r =>
    obtain ⟨x, xs, is⟩ := r
    rw [hx] at h
    obtain ⟨rs, ps, h1, h2, h3, h4, h5⟩ := h .debug
    refine ⟨rs, ps, h2, h3, h4, h5, fun w hw => ?_⟩
    obtain ⟨rs', ps', k1, k2, k3, k4, k5⟩ := h w.pr
    rw [CClient.textVars_eq (has_crv c) hw (Nat.le_refl 12), k1, V_map_inj k2 h2 (k4.trans h4.symm),
      ints_map_inj k3 h3 (k5.trans h5.symm)]
    rfl
  | none =>
    intro w hw
    rw [hx] at h
    obtain ⟨e, h⟩ := h w.pr
    exact ⟨e, by rw [CClient.textVars_eq (has_crv c) hw (Nat.le_refl 12), h]; rfl⟩

/-- C65: what `+`, `double`, `triple` and the two multiplications make of any coordinates and any scalar. -/
theorem C65_operations (c : Crv) (pr : Profile) {p q : EdwardsExtended Elem} (hp : p.Ok c.fld.Tight)
    (hq : q.Ok c.fld.Tight) {k : Elem} (hk : c.fld.Tight k) :
    (∃ r, p.add (c.scalar pr) q = .ok r ∧ r.Ok c.fld.Tight ∧ r.ints c = c.sumInt (p.ints c) (q.ints c)) ∧
    (∃ r, p.double (c.scalar pr) = .ok r ∧ r.Ok c.fld.Tight ∧ r.ints c = c.dblInt (p.ints c)) ∧
    (∃ r, p.triple (c.scalar pr) = .ok r ∧ r.Ok c.fld.Tight ∧ r.ints c = c.triInt (p.ints c)) ∧
    (∃ r, p.scalarMultNormalized (c.scalar pr) k = .ok r ∧ r.Ok c.fld.Tight ∧
      r.ints c = c.multInt (p.ints c) (c.fld.V k)) ∧
    (∃ r k', p.scalarMult (c.scalar pr) k = .ok (r, k') ∧ r.Ok c.fld.Tight ∧ c.fld.Tight k' ∧
      c.fld.V k' = c.fld.normVal (c.fld.V k) ∧ r.ints c = c.multInt (p.ints c) (c.fld.normVal (c.fld.V k))) :=
  ⟨Crv.sum_int hp hq, Crv.dbl_int hp, Crv.tri_int hp, Crv.multN_int hp hk, Crv.mult_int hp hk⟩

/-- The integers are extended coordinates of the point. -/
def Crv.Shown (c : Crv) (i : EdwardsExtended Int) (P : c.Point) : Prop :=
  (i.z : c.K) ≠ 0 ∧ (i.x : c.K) = P.x * i.z ∧ (i.y : c.K) = P.y * i.z ∧ (i.t : c.K) * i.z = i.x * i.y

theorem represents_iff {c : Crv} {r : EdwardsExtended Elem} (h : r.Ok c.fld.Tight) (P : c.Point) :
    c.Represents r P ↔ c.Shown (r.ints c) P :=
  ⟨fun h => ⟨h.1.2.1, h.1.2.2.1, h.1.2.2.2, h.2⟩, fun h' => ⟨⟨h, h'.1, h'.2.1, h'.2.2.1⟩, h'.2.2.2⟩⟩

/-- C65: on all five curves, exactly when a sum, a double, a triple and a multiple is right. -/
theorem C65_right_iff (c : Crv) (pr : Profile) {p q : EdwardsExtended Elem} {P Q : c.Point} (hp : c.Represents p P)
    (hq : c.Represents q Q) {k : Elem} (hk : c.fld.Tight k) :
    ((∃ r, p.add (c.scalar pr) q = .ok r ∧ c.Represents r (P + Q)) ↔ c.Shown (c.sumInt (p.ints c) (q.ints c)) (P + Q)) ∧
    ((∃ r, p.double (c.scalar pr) = .ok r ∧ c.Represents r (2 • P)) ↔ c.Shown (c.dblInt (p.ints c)) (2 • P)) ∧
    ((∃ r, p.triple (c.scalar pr) = .ok r ∧ c.Represents r (3 • P)) ↔ c.Shown (c.triInt (p.ints c)) (3 • P)) ∧
    ((∃ r k', p.scalarMult (c.scalar pr) k = .ok (r, k') ∧ c.Represents r (c.fld.V k • P)) ↔
      c.Shown (c.multInt (p.ints c) (c.fld.normVal (c.fld.V k))) (c.fld.V k • P)) := by
  obtain ⟨⟨r1, a1, b1, c1⟩, ⟨r2, a2, b2, c2⟩, ⟨r3, a3, b3, c3⟩, -, ⟨r4, k', a4, b4, -, -, c4⟩⟩ :=
    C65_operations c pr hp.1.1 hq.1.1 hk
  rw [← c1, ← c2, ← c3, ← c4, ← represents_iff b1, ← represents_iff b2, ← represents_iff b3, ← represents_iff b4]
  refine ⟨⟨?_, fun h => ⟨r1, a1, h⟩⟩, ⟨?_, fun h => ⟨r2, a2, h⟩⟩, ⟨?_, fun h => ⟨r3, a3, h⟩⟩,
    ⟨?_, fun h => ⟨r4, k', a4, h⟩⟩⟩
  · rintro ⟨r, h1, h2⟩; obtain rfl := Except.ok.inj (a1.symm.trans h1); exact h2
  · rintro ⟨r, h1, h2⟩; obtain rfl := Except.ok.inj (a2.symm.trans h1); exact h2
  · rintro ⟨r, h1, h2⟩; obtain rfl := Except.ok.inj (a3.symm.trans h1); exact h2
  · rintro ⟨r, k'', h1, h2⟩
    obtain ⟨rfl, -⟩ := Prod.mk.inj (Except.ok.inj (a4.symm.trans h1))
    exact h2

/-! ### Examples -/

/-- The handshake of C62 meets the hypothesis for all scalars and coordinates. -/
example (c : Crv) {a b x y : List Int} (h : ∀ l ∈ [a, b, x, y], IsBytes l) : (handshake a b x y).Args c.fld :=
  ⟨h a (by simp), h b (by simp), h x (by simp), h y (by simp), fun _ _ _ => trivial⟩

/-- A client that doubles `zero()` and triples the result, and ends with the three points. -/
def multiples : CClient Unit := .point .zero <| .point (.doubled 0) <| .point (.tripled 1) <| .done ()

/-- On Curve1174: the double of `zero()` has `z = 323` where the formulas over `ℤ / p` have `-1`; since `y` is wrong by the
same factor it is still the neutral element. -/
theorem multiples_int : multiples.int .curve1174 [] [] = some ((), [], [⟨0, 1, 1, 1⟩,
    ⟨0, 2 * Crv.curve1174.fld.p + 323, 2 * Crv.curve1174.fld.p + 323, 0⟩,
    ⟨0, 3618502788666131106986593281521497120414687020801255266040871663844026949722,
      3618502788666131106986593281521497120414687020801255266040871663844026949722, 0⟩]) := by decide +kernel

/-- So the words that all builds of the text make are those of these integers. -/
example : ∃ p q r, p.ints .curve1174 = ⟨0, 1, 1, 1⟩ ∧
    q.ints .curve1174 = ⟨0, 2 * Crv.curve1174.fld.p + 323, 2 * Crv.curve1174.fld.p + 323, 0⟩ ∧
    ∀ w : World, w.curve = crvId .curve1174 → multiples.textVars (crvProg .curve1174) w 12 (Crv.fld .curve1174) =
      .ok ((), [], [pt .curve1174 p, pt .curve1174 q, pt .curve1174 r]) := by
  have h := C65_text .curve1174 multiples trivial
  rw [multiples_int] at h
  obtain ⟨rs, ps, -, -, h1, h2, h3⟩ := h
  rw [List.map_eq_nil_iff] at h1
  subst h1
  obtain ⟨p, l, rfl, hp, h2⟩ := List.map_eq_cons_iff.1 h2
  obtain ⟨q, l, rfl, hq, h2⟩ := List.map_eq_cons_iff.1 h2
  obtain ⟨r, l, rfl, hr, h2⟩ := List.map_eq_cons_iff.1 h2
  rw [List.map_eq_nil_iff] at h2
  subst h2
  exact ⟨p, q, r, hp, hq, h3⟩

end Verif
