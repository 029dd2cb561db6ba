import Verif.Field.RepairedPow
import Verif.Props.Repairs
import Verif.Props.Clients

/-!
# C58: clients of the repaired types

C57 continued: with the same edits (`Verif/Model/Repaired.lean`) the exponentiations (C15 to C18),
`bit` (C20) and the hex output (C22) are right in all nine types, and a client that looks at
intermediate results cannot tell the repaired types from `ℤ / p` (C53), whatever operations it uses.
The conditions of C53, no `-` between elements, no exponentiations in `Mod_e251_9`, and the
normalization of every element, are not needed.
-/

namespace Verif
open Fld FieldCode

section
variable (f : Fld) (pr : Profile)

/-- C58, inverses and quotients (C15, C16): `a⁻¹` and `a b⁻¹`, with `0⁻¹ = 0`, in all nine types. -/
theorem C58_inverted {a b : Elem} (ha : f.Tight a) (hb : f.Tight b) :
    (∃ r, (Repaired.code f).inverted pr a = .ok r ∧ f.Tight r ∧
      ((f.V r : Int) : ZMod f.pN) = ((f.V a : Int) : ZMod f.pN)⁻¹) ∧
    ∃ r, (Repaired.code f).div pr a b = .ok r ∧ f.Tight r ∧
      ((f.V r : Int) : ZMod f.pN) = (f.V a : Int) * ((f.V b : Int) : ZMod f.pN)⁻¹ :=
  ⟨Repaired.inverted_ok f pr ha, Repaired.div_ok f pr ha hb⟩

open Classical in
/-- C58, the Legendre symbol (C17), in all nine types. -/
theorem C58_legendre {a : Elem} (ha : f.Tight a) :
    ∃ r, (Repaired.code f).legendre pr a = .ok r ∧ f.Tight r ∧
      ((f.V r : Int) : ZMod f.pN) = if ((f.V a : Int) : ZMod f.pN) = 0 then 0 else
        if IsSquare ((f.V a : Int) : ZMod f.pN) then 1 else -1 := Repaired.legendre_ok f pr ha

/-- C58, square roots (C18, C45): of squares, a root, in all nine types; in general, the power
`f.root`. -/
theorem C58_sqrt {a : Elem} (ha : f.Tight a) :
    ∃ r, (Repaired.code f).sqrt pr a = .ok r ∧ f.Tight r ∧
      ((f.V r : Int) : ZMod f.pN) = f.root (f.V a : Int) ∧
      ((∃ y : Int, y * y ≡ f.V a [ZMOD f.p]) → f.V r * f.V r ≡ f.V a [ZMOD f.p]) := by
  obtain ⟨r, h1, h2, h3⟩ := Repaired.sqrt_ok f pr ha
  refine ⟨r, h1, h2, h3, fun ⟨y, hy⟩ => ?_⟩
  rw [modEq_iff] at *
  push_cast at *
  rw [h3]
  exact (C45_root f ⟨_, hy.symm⟩).1

/-- Equality of words decides equality of lists of the same length. -/
theorem zipWith_all_eq : ∀ (x y : List Int), x.length = y.length →
    ((List.zipWith (fun x y => decide (x = y)) x y).all id = true ↔ x = y) := by
  intro x
  induction x with
  | nil => intro y h; cases y with
    | nil => simp
    | cons => simp at h
  | cons u x ih =>
    intro y h
    cases y with
    | nil => simp at h
    | cons v y =>
      simp only [List.zipWith_cons_cons, List.all_cons, id, Bool.and_eq_true,
        decide_eq_true_eq, List.cons.injEq, ih y (by simpa using h)]

/-- C58, `normalize_eq` (C10): answers whether the residues are equal, for all representations. -/
theorem C58_normalize_eq {a b : Elem} (ha : f.Rep a) (hb : f.Rep b) :
    ∃ a' b' r, Repaired.normalizeEq f pr a b = .ok (a', b', r) ∧ f.Canon (f.V a % f.p) a' ∧
      f.Canon (f.V b % f.p) b' ∧ (r = true ↔ f.V a ≡ f.V b [ZMOD f.p]) := by
  obtain ⟨a', b', h1, h2, h3⟩ := C57_compare f pr ha hb
  obtain ⟨x, g1, ca⟩ := Repaired.normalize_ok f pr ha
  obtain ⟨y, g2, cb⟩ := Repaired.normalize_ok f pr hb
  cases h1.symm.trans g1
  cases h2.symm.trans g2
  refine ⟨a', b', (List.zipWith (fun x y => decide (x = y)) a' b').all id, ?_, ca, cb, ?_⟩
  · simp only [Repaired.normalizeEq, h1, h2, bind, Except.bind, pure, Except.pure]
  · rw [zipWith_all_eq _ _ (by rw [ca.1.length, cb.1.length])]
    exact h3

/-- C58, `bit` (C20): bit `i` of the canonical value, for all representations; beyond the words, a
panic. -/
theorem C58_bit {a : Elem} (ha : f.Rep a) (i : Nat) :
    (i < f.L * f.k → ∃ a', Repaired.bit f pr a i =
      .ok (a', decide ((f.V a % f.p) / 2 ^ i % 2 = 1)) ∧ f.Canon (f.V a % f.p) a') ∧
    (f.L * f.k ≤ i → ∃ e, Repaired.bit f pr a i = .error e) := by
  obtain ⟨a', h1, ca⟩ := Repaired.normalize_ok f pr ha
  have hv := ca.2.1
  have hr := ca.tight.rep
  have hF : f.Foldable (f.V a') := Foldable.of_nonneg (by rw [hv]; exact ca.2.2.1)
  have hm : f.V a' % f.p = f.V a % f.p := by rw [hv, Int.emod_emod]
  obtain ⟨s, n1, -, n2⟩ := C09_normalize_correct_iff f pr hr
  have hs : s = a' := by
    have := n2.mpr hF
    rw [hm] at this
    exact C09_canonical_unique f this ca
  subst hs
  obtain ⟨k1, k2⟩ := C20_bit_partial f pr hr hF i
  rw [hm] at k1
  simp only [FieldCode.bit, Repaired.bit, n1, h1, bind, Except.bind] at *
  exact ⟨k1, k2⟩

/-- C58, the packed bytes (C11) and the hex digits (C22) of all representations. -/
theorem C58_packed {a : Elem} (ha : f.Rep a) (upper : Bool) :
    ∃ a' out, Repaired.packed f pr a = .ok (a', out) ∧ f.Canon (f.V a % f.p) a' ∧
      out = leBytes f.nbytes (f.V a % f.p).toNat ∧
      Repaired.fmtHex f pr upper a = .ok (hexDigits upper f.nbytes (f.V a % f.p).toNat) := by
  obtain ⟨a', out, h1, h2, h3, h4, h5⟩ := C57_pack f pr ha (bytes := List.replicate f.nbytes 0)
    (fun b hb => by rw [List.eq_of_mem_replicate hb]; norm_num) (by simp)
  rw [List.drop_of_length_le (by simp), List.append_nil] at h1
  have hp : Repaired.packed f pr a = .ok (a', out) := by
    rw [Repaired.packed, show f.code.nbytes = f.nbytes from by cases f <;> rfl]; exact h1
  have e := eq_leBytes h4 (v := (f.V a % f.p).toNat)
    (by rw [h5, Int.toNat_of_nonneg (Int.emod_nonneg _ f.p_pos.ne')])
  rw [h3] at e
  refine ⟨a', out, hp, h2, e, ?_⟩
  simp only [Repaired.fmtHex, hp, bind, Except.bind, pure, Except.pure, e, hex_leBytes]

end

theorem leBytes_isBytes (n v : Nat) : IsBytes (leBytes n v) := by
  induction n generalizing v with
  | zero => nofun
  | succ n ih =>
    intro b hb
    rcases List.mem_cons.1 hb with rfl | hb
    · exact ⟨by positivity, by omega⟩
    · exact ih _ b hb

theorem p_cast (f : Fld) : ((f.p : Int) : ZMod f.pN) = 0 := by rw [p_eq, Int.cast_natCast, ZMod.natCast_self]

namespace Repaired

/-- Instructions of clients: those of C53, negation and products with integers. -/
inductive Instr where
  | op (o : Op)
  | neg (i : Nat)
  | mulI (i : Nat) (n : Int)

/-- Clients with results of type `α` (as in C53). -/
inductive Client (α : Type) where
  | done (x : α)
  | step (o : Instr) (k : Client α)
  | normalize (i : Nat) (k : Client α)
  | eq (i j : Nat) (k : Bool → Client α)
  | bit (i idx : Nat) (k : Bool → Client α)
  | packed (i : Nat) (k : List Int → Client α)
  | hex (upper : Bool) (i : Nat) (k : List Char → Client α)

section
variable (f : Fld) (pr : Profile)

/-- Run an instruction with the repaired code. -/
def Instr.exec (rs : List Elem) (o : Instr) : Res Elem :=
  let r := fun i => rs.getD i f.code.ZERO
  match o with
  | op .zero => .ok f.code.ZERO
  | op .one => .ok f.code.ONE
  | op .mOne => .ok f.code.M_ONE
  | op .modulus => .ok f.code.MODULUS
  | op (.bytes bs) => unpacked f pr bs
  | op (.rand rng) => .ok (f.code.rand rng)
  | op (.add i j) => f.code.add pr (r i) (r j)
  | op (.sub i j) => subAssign f pr (r i) (r j)
  | op (.mul i j) => mulAssign f pr (r i) (r j)
  | op (.div i j) => (code f).div pr (r i) (r j)
  | op (.addI i n) => f.code.smallAdd pr (r i) n
  | op (.subI i n) => f.code.smallSub pr (r i) n
  | op (.square i) => f.code.squared pr (r i)
  | op (.invert i) => (code f).inverted pr (r i)
  | op (.legendre i) => (code f).legendre pr (r i)
  | op (.sqrt i) => (code f).sqrt pr (r i)
  | op (.select b i j) => .ok (normalizedBitor (normalizedBitand (r i) (f.code.filled b))
      (normalizedBitand (r j) (f.code.filled !b)))
  | neg i => Repaired.neg f pr (r i)
  | mulI i n => smallMulAssign f pr (r i) n

/-- Run a client with the repaired code. -/
def Client.run {α : Type} : Client α → List Elem → Res α
  | done x, _ => .ok x
  | step o k, rs => do k.run (rs ++ [← o.exec f pr rs])
  | normalize i k, rs => do
    k.run (rs.set i (← Repaired.normalize f pr (rs.getD i f.code.ZERO)))
  | eq i j k, rs => do
    let (x, y, b) ← normalizeEq f pr (rs.getD i f.code.ZERO) (rs.getD j f.code.ZERO)
    (k b).run ((rs.set i x).set j y)
  | bit i idx k, rs => do
    let (x, b) ← Repaired.bit f pr (rs.getD i f.code.ZERO) idx
    (k b).run (rs.set i x)
  | packed i k, rs => do
    let (x, out) ← Repaired.packed f pr (rs.getD i f.code.ZERO)
    (k out).run (rs.set i x)
  | hex upper i k, rs => do
    let s ← fmtHex f pr upper (rs.getD i f.code.ZERO)
    (k s).run rs

/-- The instruction in `ℤ / p`. -/
noncomputable def Instr.ideal (ds : List (ZMod f.pN)) : Instr → ZMod f.pN
  | op o => o.ideal f ds
  | neg i => -ds.getD i 0
  | mulI i n => ds.getD i 0 * n

/-- What the client gets when every element is a residue class. -/
noncomputable def Client.ideal {α : Type} : Client α → List (ZMod f.pN) → α
  | done x, _ => x
  | step o k, ds => k.ideal (ds ++ [o.ideal f ds])
  | normalize _ k, ds => k.ideal ds
  | eq i j k, ds => (k (decide (ds.getD i 0 = ds.getD j 0))).ideal ds
  | bit i idx k, ds => (k ((ds.getD i 0).val.testBit idx)).ideal ds
  | packed i k, ds => (k (leBytes f.nbytes (ds.getD i 0).val)).ideal ds
  | hex upper i k, ds => (k (hexDigits upper f.nbytes (ds.getD i 0).val)).ideal ds

/-- The arguments have the Rust types and byte strings are long enough. -/
def Instr.Valid : Instr → Prop
  | op (.bytes bs) => IsBytes bs ∧ f.nbytes ≤ bs.length
  | op (.rand rng) => IsRng rng
  | op (.addI _ n) | op (.subI _ n) | mulI _ n => IsI32 n
  | _ => True

/-- All instructions the client can come to have valid arguments, and bit indices are inside the
words. -/
def Client.Valid {α : Type} : Client α → Prop
  | done _ => True
  | step o k => o.Valid f ∧ k.Valid
  | normalize _ k => k.Valid
  | eq _ _ k => ∀ b, (k b).Valid
  | bit _ idx k => idx < f.L * f.k ∧ ∀ b, (k b).Valid
  | packed _ k => ∀ out, out.length = f.nbytes → IsBytes out → (k out).Valid
  | hex _ _ k => ∀ s, (k s).Valid

end

section
variable {f : Fld} {pr : Profile}

/-- What the code keeps about an element that stands for the residue class `d`. -/
def Inv (f : Fld) (d : ZMod f.pN) (a : Elem) : Prop := f.Tight a ∧ ((f.V a : Int) : ZMod f.pN) = d

theorem Inv.of_canon {d : ZMod f.pN} {a a' : Elem} (h : Inv f d a) (c : f.Canon (f.V a % f.p) a') :
    Inv f d a' :=
  ⟨c.tight, by rw [← h.2]; exact modEq_iff.1 (denotes_canon f c)⟩

theorem Instr.step {ds : List (ZMod f.pN)} {rs : List Elem} (h : List.Forall₂ (Inv f) ds rs)
    {o : Instr} (ho : o.Valid f) : ∃ x, o.exec f pr rs = .ok x ∧ Inv f (o.ideal f ds) x := by
  have hz : Inv f 0 f.code.ZERO := ⟨(zero_canon f).tight, by rw [(zero_canon f).2.1, Int.cast_zero]⟩
  have g := fun i => forall₂_getD hz h i
  have cast : ∀ {r : Elem} {v : Int}, f.Denotes r v → ((f.V r : Int) : ZMod f.pN) = v :=
    fun h => modEq_iff.1 h
  cases o with
  | neg i =>
    obtain ⟨r, h1, h2, h3⟩ := neg_ok f pr (g i).1.rep
    exact ⟨r, h1, h2, by rw [cast h3, Int.cast_neg, (g i).2]; rfl⟩
  | mulI i n =>
    obtain ⟨r, h1, h2, h3⟩ := smallMul_ok f pr (g i).1.loose ho
    exact ⟨r, h1, h2, by rw [cast h3, Int.cast_mul, (g i).2]; rfl⟩
  | op o =>
    cases o with
    | zero => exact ⟨_, rfl, hz⟩
    | one => exact ⟨_, rfl, (one_canon f).tight, by rw [(one_canon f).2.1, Int.cast_one]; rfl⟩
    | mOne =>
      refine ⟨_, rfl, (m_one_canon f).tight, ?_⟩
      rw [(m_one_canon f).2.1, Int.cast_sub, Int.cast_one, p_cast, zero_sub]; rfl
    | modulus =>
      exact ⟨_, rfl, word_tight (modulus_shape f), by rw [modulus_V, p_cast]; rfl⟩
    | bytes bs =>
      obtain ⟨r, h1, h2, h3⟩ := C57_unpack f pr (Rep.isWords (zero_canon f).tight.rep) ho.1 ho.2
      refine ⟨r, ?_, word_tight h2, by rw [h3]; rfl⟩
      rw [← h1]
      cases f <;> rfl
    | rand rng => exact ⟨_, rfl, (C24_rand_canonical f ho).tight, rfl⟩
    | add i j =>
      obtain ⟨r, h1, h2, h3⟩ := C01_add f pr (g i).1.rep (g j).1.rep
      exact ⟨r, h1, h2, by rw [cast h3, Int.cast_add, (g i).2, (g j).2]; rfl⟩
    | sub i j =>
      obtain ⟨r, h1, h2, h3⟩ := (C57_sub f pr (g i).1.rep (g j).1.rep).1
      exact ⟨r, h1, h2, by rw [cast h3, Int.cast_sub, (g i).2, (g j).2]; rfl⟩
    | mul i j =>
      obtain ⟨r, h1, h2, h3⟩ := mul_ok f pr (g i).1.loose (g j).1.loose
      exact ⟨r, h1, h2, by rw [cast h3, Int.cast_mul, (g i).2, (g j).2]; rfl⟩
    | div i j =>
      obtain ⟨r, h1, h2, h3⟩ := div_ok f pr (g i).1 (g j).1
      exact ⟨r, h1, h2, by rw [h3, (g i).2, (g j).2]; rfl⟩
    | addI i n =>
      obtain ⟨r, h1, h2, h3⟩ := C06_small_add f pr (g i).1.rep ho
      exact ⟨r, h1, h2, by rw [cast h3, Int.cast_add, (g i).2]; rfl⟩
    | subI i n =>
      obtain ⟨r, h1, h2, h3⟩ := C06_small_sub f pr (g i).1.rep ho
      exact ⟨r, h1, h2, by rw [cast h3, Int.cast_sub, (g i).2]; rfl⟩
    | square i =>
      obtain ⟨r, h1, h2, h3⟩ := C05_square f pr (g i).1
      exact ⟨r, h1, h2, by rw [cast h3, Int.cast_mul, (g i).2]; rfl⟩
    | invert i =>
      obtain ⟨r, h1, h2, h3⟩ := inverted_ok f pr (g i).1
      exact ⟨r, h1, h2, by rw [h3, (g i).2]; rfl⟩
    | legendre i =>
      obtain ⟨r, h1, h2, h3⟩ := legendre_ok f pr (g i).1
      exact ⟨r, h1, h2, by rw [h3, (g i).2]; rfl⟩
    | sqrt i =>
      obtain ⟨r, h1, h2, h3⟩ := sqrt_ok f pr (g i).1
      exact ⟨r, h1, h2, by rw [h3, (g i).2]; rfl⟩
    | select b i j =>
      refine ⟨_, rfl, ?_⟩
      rw [C21_select f b (Rep.isWords (g i).1.rep) (Rep.isWords (g j).1.rep)]
      cases b
      · exact g j
      · exact g i

end
end Repaired

/-- C58, clients (C53): a client of the repaired types that may look at intermediate results, in all
nine types and with all operations, gets the answers and returns the result of the same client
computing in `ℤ / p`, and does not panic. -/
theorem C58_client (f : Fld) (pr : Profile) {α : Type} (c : Repaired.Client α) :
    ∀ {ds : List (ZMod f.pN)} {rs : List Elem}, c.Valid f → List.Forall₂ (Repaired.Inv f) ds rs →
      c.run f pr rs = .ok (c.ideal f ds) := by
  have hz : Repaired.Inv f 0 f.code.ZERO :=
    ⟨(zero_canon f).tight, by rw [(zero_canon f).2.1, Int.cast_zero]⟩
  induction c with
  | done x => intro ds rs _ _; rfl
  | step o k ih =>
    intro ds rs hu h
    obtain ⟨x, h1, h2⟩ := Repaired.Instr.step (pr := pr) h hu.1
    simp only [Repaired.Client.run, Repaired.Client.ideal, h1, bind, Except.bind]
    exact ih hu.2 (forall₂_snoc h h2)
  | normalize i k ih =>
    intro ds rs hu h
    have hi := forall₂_getD hz h i
    obtain ⟨r, h1, h2⟩ := Repaired.normalize_ok f pr hi.1.rep
    simp only [Repaired.Client.run, Repaired.Client.ideal, h1, bind, Except.bind]
    exact ih hu (forall₂_set h i (hi.of_canon h2))
  | eq i j k ih =>
    intro ds rs hu h
    have hi := forall₂_getD hz h i
    have hj := forall₂_getD hz h j
    obtain ⟨x, y, b, h1, h2, h3, h4⟩ := C58_normalize_eq f pr hi.1.rep hj.1.rep
    have hb : b = decide (ds.getD i 0 = ds.getD j 0) := by
      rw [modEq_iff, hi.2, hj.2] at h4
      rw [Bool.eq_iff_iff, h4, decide_eq_true_eq]
    subst hb
    simp only [Repaired.Client.run, Repaired.Client.ideal, h1, bind, Except.bind]
    exact ih _ (hu _) (forall₂_set (forall₂_set h i (hi.of_canon h2)) j (hj.of_canon h3))
  | bit i idx k ih =>
    intro ds rs hu h
    have hi := forall₂_getD hz h i
    obtain ⟨x, h1, h2⟩ := (C58_bit f pr hi.1.rep idx).1 hu.1
    have hb : decide ((f.V (rs.getD i f.code.ZERO) % f.p) / 2 ^ idx % 2 = 1) =
        (ds.getD i 0).val.testBit idx := by
      rw [val_cast hi.2, Nat.testBit_eq_decide_div_mod_eq]
      exact decide_eq_decide.mpr (by norm_cast)
    rw [hb] at h1
    simp only [Repaired.Client.run, Repaired.Client.ideal, h1, bind, Except.bind]
    exact ih _ (hu.2 _) (forall₂_set h i (hi.of_canon h2))
  | packed i k ih =>
    intro ds rs hu h
    have hi := forall₂_getD hz h i
    obtain ⟨x, out, h1, h2, h3, -⟩ := C58_packed f pr hi.1.rep false
    rw [val_cast hi.2, Int.toNat_natCast] at h3
    subst h3
    simp only [Repaired.Client.run, Repaired.Client.ideal, h1, bind, Except.bind]
    exact ih _ (hu _ (leBytes_length _ _) (leBytes_isBytes _ _)) (forall₂_set h i (hi.of_canon h2))
  | hex upper i k ih =>
    intro ds rs hu h
    have hi := forall₂_getD hz h i
    obtain ⟨x, out, -, -, -, h1⟩ := C58_packed f pr hi.1.rep upper
    rw [val_cast hi.2, Int.toNat_natCast] at h1
    simp only [Repaired.Client.run, Repaired.Client.ideal, h1, bind, Except.bind]
    exact ih _ (hu _) h

/-- The Legendre symbol of `0 - 1`, compared with `0 - 1`: the code of `Mod_e222_117` and `Mod_e251_9`
goes wrong here (C17_counterexample). -/
def Repaired.legendreClient : Repaired.Client Bool :=
  .step (.op .zero) <| .step (.op .one) <| .step (.op (.sub 0 1)) <| .step (.op (.legendre 2)) <|
    .eq 3 2 .done

example (pr : Profile) : Repaired.legendreClient.run .e222_117 pr [] = .ok true := by
  rw [C58_client .e222_117 pr Repaired.legendreClient (ds := []) ⟨trivial, trivial, trivial, trivial,
    fun _ => trivial⟩ .nil]
  have h : ¬ IsSquare (-1 : ZMod Fld.e222_117.pN) := by
    rw [ZMod.exists_sq_eq_neg_one_iff]
    exact fun h => h (by decide +kernel)
  have h1 : (-1 : ZMod Fld.e222_117.pN) ≠ 0 := neg_ne_zero.mpr one_ne_zero
  simp [Repaired.legendreClient, Repaired.Client.ideal, Repaired.Instr.ideal, Op.ideal, h, h1]

end Verif
