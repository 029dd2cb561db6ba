import Verif.Props.Encodings
import Mathlib.Algebra.BigOperators.Intervals

/-!
# Property C70: how often the code goes wrong

The defects of C02, C03, C04, C07 and C09 differ very much in how many inputs show them: nearly half of all inputs in
the shortest computations, or a handful of byte strings.
-/

namespace Verif
open Fld

variable (f : Fld) (pr : Profile)

/-- The elements that `normalize` returns, and that are packed and unpacked without change. -/
def Canonical (a : Elem) : Prop := ∃ x, f.Canon x a

variable {f} in
theorem Canonical.canon {a : Elem} (h : Canonical f a) : f.Canon (f.V a) a := by
  obtain ⟨x, h⟩ := h
  rwa [h.2.1]

/-- There is a canonical element for every number below `p`. -/
theorem exists_canonical {m : Nat} (hm : m < f.pN) : ∃ a, f.Canon m a := by
  have h1 : (m : Int) < f.p := by rw [p_eq]; exact_mod_cast hm
  have hn : f.p < 2 ^ (8 * f.nbytes) := by cases f <;> decide +kernel
  have hz := Rep.isWords (Tight.rep (zero_canon f).tight)
  have hv := leVal_leBytes f.nbytes m (by exact_mod_cast h1.trans hn)
  have hl := leBytes_length f.nbytes m
  have ht : (leBytes f.nbytes m).take f.nbytes = leBytes f.nbytes m := List.take_of_length_le hl.le
  obtain ⟨a, -, h3, h4⟩ := C12_unpack_small f .debug hz (leBytes_isBytes f.nbytes m) hl.ge
    (by rw [ht, hv]; exact h1.trans f.p_lt)
  exact ⟨a, h3, by rw [h4, ht, hv], by positivity, h1⟩

private noncomputable def canonEquiv : {a : Elem // Canonical f a} ≃ Fin f.pN where
  toFun a := ⟨(f.V a.1).toNat, by
    have h := a.2.canon.2.2
    rw [p_eq] at h
    omega⟩
  invFun m := ⟨(exists_canonical f m.2).choose, _, (exists_canonical f m.2).choose_spec⟩
  left_inv a := Subtype.ext (by
    have h := a.2.canon
    have hm : (f.V a.1).toNat < f.pN := by have h := h.2.2; rw [p_eq] at h; omega
    have h2 := (exists_canonical f hm).choose_spec
    exact C09_canonical_unique f h2 (by rw [Int.toNat_of_nonneg h.2.2.1]; exact h))
  right_inv m := Fin.ext (by
    show (f.V (exists_canonical f m.2).choose).toNat = _
    rw [(exists_canonical f m.2).choose_spec.2.1]
    rfl)

private theorem canonEquiv_val (a : {a : Elem // Canonical f a}) : (((canonEquiv f a : Fin f.pN) : Nat) : Int) = f.V a.1 :=
  Int.toNat_of_nonneg a.2.canon.2.2.1

/-- There are `p` canonical elements. -/
theorem C70_canonical : (Nat.card {a : Elem // Canonical f a} : Int) = f.p := by
  rw [Nat.card_congr (canonEquiv f), Nat.card_fin, p_eq]

private theorem card_one (Q : Elem → Prop) (Q' : Nat → Prop) (h : ∀ a, Canonical f a → (Q a ↔ Q' (f.V a).toNat)) :
    Nat.card {a : Elem // Canonical f a ∧ Q a} = Nat.card {m : Fin f.pN // Q' m} := by
  refine Nat.card_congr ((Equiv.subtypeSubtypeEquivSubtypeInter _ _).symm.trans
    (Equiv.subtypeEquiv (canonEquiv f) fun a => ?_))
  rw [h a.1 a.2]
  rfl

private theorem card_two (Q : Elem → Elem → Prop) (Q' : Nat → Nat → Prop)
    (h : ∀ a b, Canonical f a → Canonical f b → (Q a b ↔ Q' (f.V a).toNat (f.V b).toNat)) :
    Nat.card {q : Elem × Elem // (Canonical f q.1 ∧ Canonical f q.2) ∧ Q q.1 q.2} =
      Nat.card {q : Fin f.pN × Fin f.pN // Q' q.1 q.2} := by
  refine Nat.card_congr ((Equiv.subtypeSubtypeEquivSubtypeInter (fun q : Elem × Elem => Canonical f q.1 ∧ Canonical f q.2)
      (fun q => Q q.1 q.2)).symm.trans
    (Equiv.subtypeEquiv ((Equiv.subtypeProdEquivProd (p := Canonical f) (q := Canonical f)).trans
      (Equiv.prodCongr (canonEquiv f) (canonEquiv f))) fun q => ?_))
  rw [h q.1.1 q.1.2 q.2.1 q.2.2]
  rfl

private theorem sum_sub (c : Nat) : ∀ m, 2 * ∑ a ∈ Finset.range m, (a - c) = (m - c) * (m - c - 1)
  | 0 => by simp
  | m + 1 => by
    rw [Finset.sum_range_succ, mul_add, sum_sub c m]
    by_cases h : c ≤ m
    · obtain ⟨d, rfl⟩ := Nat.exists_eq_add_of_le h
      have e1 : c + d - c = d := by omega
      have e2 : c + d + 1 - c = d + 1 := by omega
      rw [e1, e2]
      cases d with
      | zero => rfl
      | succ d => simp only [Nat.add_sub_cancel]; ring
    · have e1 : m - c = 0 := by omega
      have e2 : m + 1 - c = 0 := by omega
      rw [e1, e2]

private theorem card_pairs {p : Nat} (Q : Nat → Nat → Prop) [∀ a b, Decidable (Q a b)] (g : Nat → Nat)
    (h : ∀ a < p, ((Finset.range p).filter (Q a)).card = g a) :
    Nat.card {q : Fin p × Fin p // Q q.1 q.2} = ∑ a ∈ Finset.range p, g a := by
  rw [Nat.card_eq_fintype_card, Fintype.card_subtype, Finset.card_filter, ← Finset.univ_product_univ, Finset.sum_product,
    Finset.sum_range]
  refine Finset.sum_congr rfl fun a _ => ?_
  rw [← h a a.2, Finset.card_filter, Finset.sum_range]

/-- How many pairs of numbers below `p` have a sum of at least `p + c`. -/
private theorem card_sum (p c : Nat) :
    2 * Nat.card {q : Fin p × Fin p // p + c ≤ (q.1 : Nat) + q.2} = (p - c) * (p - c - 1) := by
  rw [card_pairs (fun a b => p + c ≤ a + b) (fun a => a - c), sum_sub]
  intro a ha
  have e : (Finset.range p).filter (fun b => p + c ≤ a + b) = Finset.Ico (p + c - a) p := by
    ext b
    simp only [Finset.mem_filter, Finset.mem_range, Finset.mem_Ico]
    omega
  rw [e, Nat.card_Ico]
  omega

/-- How many pairs of numbers below `p` are in ascending order. -/
private theorem card_lt (p : Nat) :
    2 * Nat.card {q : Fin p × Fin p // (q.2 : Nat) < q.1} = p * (p - 1) := by
  rw [card_pairs (fun a b => b < a) (fun a => a), mul_comm, Finset.sum_range_id_mul_two]
  intro a ha
  have e : (Finset.range p).filter (fun b => b < a) = Finset.range a := by
    ext b
    simp only [Finset.mem_filter, Finset.mem_range]
    omega
  rw [e, Finset.card_range]

private theorem add_canonical {a b : Elem} (ha : Canonical f a) (hb : Canonical f b) :
    ∃ s, f.code.add pr a b = .ok s ∧ f.Tight s ∧ f.V s = f.V a + f.V b := by
  have ha := ha.canon
  have hb := hb.canon
  obtain ⟨s, h1, h2, -⟩ := C01_add f pr ha.tight.rep hb.tight.rep
  obtain ⟨s', h3, -, h4⟩ := add_exact pr ha.tight.rep hb.tight.rep
  have e : f.code.addAssign pr a b = f.code.add pr a b := rfl
  rw [e, h1] at h3
  cases h3
  have va := word_V ha.1
  have vb := word_V hb.1
  refine ⟨s, h1, h2, ?_⟩
  rw [h4, Int.ediv_eq_zero_of_lt va.1 va.2, Int.ediv_eq_zero_of_lt vb.1 vb.2]
  ring

private theorem pN_add : ((f.pN + f.c : Nat) : Int) = 2 ^ f.n := by
  push_cast; rw [← p_eq]; unfold p; ring

/-- The pairs of canonical elements whose sum has a carry. -/
private theorem card_carry (Q : Elem → Elem → Prop)
    (h : ∀ a b, Canonical f a → Canonical f b → (Q a b ↔ 2 ^ f.n ≤ f.V a + f.V b)) :
    2 * (Nat.card {q : Elem × Elem // (Canonical f q.1 ∧ Canonical f q.2) ∧ Q q.1 q.2} : Int) =
      (f.p - f.c) * (f.p - f.c - 1) := by
  rw [card_two f Q (fun m m' => f.pN + f.c ≤ m + m')]
  · have hc : f.c + 1 ≤ f.pN := by cases f <;> decide +kernel
    have := card_sum f.pN f.c
    rw [p_eq]
    have e : ((f.pN : Int) - f.c) * (f.pN - f.c - 1) = (((f.pN - f.c) * (f.pN - f.c - 1) : Nat) : Int) := by
      rw [Nat.cast_mul, Nat.cast_sub (by omega), Nat.cast_sub (by omega), Nat.cast_sub (by omega)]
      rfl
    rw [e, ← this]
    push_cast
    rfl
  · intro a b ha hb
    rw [h a b ha hb, ← pN_add]
    have h1 := ha.canon.2.2.1
    have h2 := hb.canon.2.2.1
    omega

/-- C70: `x - (a + b)` is wrong for nearly half of all canonical `a` and `b`, whatever `x` is. -/
theorem C70_sub {x : Elem} (hx : f.Rep x) :
    2 * (Nat.card {q : Elem × Elem // (Canonical f q.1 ∧ Canonical f q.2) ∧ ∃ s r, f.code.add pr q.1 q.2 = .ok s ∧
      f.code.sub pr x s = .ok r ∧ ¬ f.Denotes r (f.V x - (f.V q.1 + f.V q.2))} : Int) = (f.p - f.c) * (f.p - f.c - 1) := by
  refine card_carry f (fun a b => ∃ s r, f.code.add pr a b = .ok s ∧
      f.code.sub pr x s = .ok r ∧ ¬ f.Denotes r (f.V x - (f.V a + f.V b))) fun a b ha hb => ?_
  obtain ⟨s, h1, h2, h3⟩ := add_canonical f pr ha hb
  obtain ⟨r, h4, -, h5⟩ := C02_sub_correct_iff f pr hx h2.rep
  rw [h3] at h5
  have h6 := ha.canon.2.2.1
  have h7 := hb.canon.2.2.1
  constructor
  · rintro ⟨s', r', e1, e2, h⟩
    rw [h1] at e1; cases e1
    rw [h4] at e2; cases e2
    rw [h5] at h
    exact not_lt.1 fun hl => h ⟨by omega, hl⟩
  · intro h
    exact ⟨s, r, h1, h4, fun h' => absurd (h5.1 h').2 (not_lt.2 h)⟩

/-- C70: so is `(a + b) * n` for integers `n` of up to 13 bits, in all types but `Mod_e521_1`, where still more are wrong
(C07). -/
theorem C70_small_mul (hf : f ≠ .e521_1) {n : Int} (hn : -2 ^ f.smE ≤ n ∧ n ≤ 2 ^ f.smE) :
    2 * (Nat.card {q : Elem × Elem // (Canonical f q.1 ∧ Canonical f q.2) ∧ ∃ s r, f.code.add pr q.1 q.2 = .ok s ∧
      f.code.smallMul pr s n = .ok r ∧ ¬ f.Denotes r ((f.V q.1 + f.V q.2) * n)} : Int) = (f.p - f.c) * (f.p - f.c - 1) := by
  refine card_carry f (fun a b => ∃ s r, f.code.add pr a b = .ok s ∧
      f.code.smallMul pr s n = .ok r ∧ ¬ f.Denotes r ((f.V a + f.V b) * n)) fun a b ha hb => ?_
  obtain ⟨s, h1, h2, h3⟩ := add_canonical f pr ha hb
  obtain ⟨r, h4, -, h5⟩ := C07_small_mul_correct_iff f pr hf h2 hn
  rw [h3] at h5
  have h6 := ha.canon.2.2.1
  have h7 := hb.canon.2.2.1
  constructor
  · rintro ⟨s', r', e1, e2, h⟩
    rw [h1] at e1; cases e1
    rw [h4] at e2; cases e2
    rw [h5] at h
    exact not_lt.1 fun hl => h ⟨by omega, hl⟩
  · intro h
    exact ⟨s, r, h1, h4, fun h' => absurd (h5.1 h').2 (not_lt.2 h)⟩

/-- C70: `-a` is wrong for every canonical `a` but zero. -/
theorem C70_neg : (Nat.card {a : Elem // Canonical f a ∧ ∃ r, f.code.neg pr a = .ok r ∧ ¬ f.Denotes r (-f.V a)} : Int) = f.p - 1 := by
  have hpos : 0 < f.pN := by cases f <;> decide +kernel
  rw [card_one f (fun a => ∃ r, f.code.neg pr a = .ok r ∧ ¬ f.Denotes r (-f.V a)) (fun m => ¬ m = 0)]
  · rw [Nat.card_eq_fintype_card]
    have := Fintype.card_subtype_compl (fun m : Fin f.pN => (m : Nat) = 0)
    rw [this, Fintype.card_fin, p_eq]
    have e : Fintype.card {m : Fin f.pN // (m : Nat) = 0} = 1 :=
      Fintype.card_eq_one_iff.2 ⟨⟨⟨0, hpos⟩, rfl⟩, fun m => Subtype.ext (Fin.ext m.2)⟩
    rw [e, Nat.cast_sub (by omega)]
    rfl
  · intro a ha
    have ha := ha.canon
    obtain ⟨r, h1, -, -, h2⟩ := C03_neg_is_identity f pr ha.tight.rep
    have h3 : f.p ∣ f.V a ↔ (f.V a).toNat = 0 := by
      have h4 := ha.2.2
      constructor
      · intro h
        have := Int.eq_zero_of_dvd_of_nonneg_of_lt h4.1 h4.2 h
        omega
      · intro h
        have : f.V a = 0 := by omega
        rw [this]; exact dvd_zero _
    rw [← h3, ← h2]
    constructor
    · rintro ⟨r', e, h⟩
      rw [h1] at e; cases e
      exact h
    · intro h
      exact ⟨r, h1, h⟩

/-- C70: `(a - b) * m` is wrong in `Mod_e222_117` and `Mod_e251_9` for nearly half of all canonical `a` and `b`, whatever
canonical `m` is, except zero. -/
theorem C70_mul (hf : f = .e222_117 ∨ f = .e251_9) {m : Elem} (hm : Canonical f m) (h0 : f.V m ≠ 0) :
    2 * (Nat.card {q : Elem × Elem // (Canonical f q.1 ∧ Canonical f q.2) ∧ ∃ s r, f.code.sub pr q.1 q.2 = .ok s ∧
      f.code.mul pr s m = .ok r ∧ ¬ f.Denotes r ((f.V q.1 - f.V q.2) * f.V m)} : Int) = f.p * (f.p - 1) := by
  rw [card_two f (fun a b => ∃ s r, f.code.sub pr a b = .ok s ∧ f.code.mul pr s m = .ok r ∧
    ¬ f.Denotes r ((f.V a - f.V b) * f.V m)) (fun x y => x < y)]
  · have e : Nat.card {q : Fin f.pN × Fin f.pN // (q.1 : Nat) < q.2} = Nat.card {q : Fin f.pN × Fin f.pN // (q.2 : Nat) < q.1} :=
      Nat.card_congr (Equiv.subtypeEquiv (Equiv.prodComm _ _) fun q => Iff.rfl)
    have hpos : 1 ≤ f.pN := by cases f <;> decide +kernel
    have := card_lt f.pN
    rw [← e] at this
    rw [p_eq]
    have e' : (f.pN : Int) * (f.pN - 1) = ((f.pN * (f.pN - 1) : Nat) : Int) := by
      rw [Nat.cast_mul, Nat.cast_sub hpos]; rfl
    rw [e', ← this]
    push_cast
    rfl
  · intro a b ha hb
    have ha := ha.canon
    have hb := hb.canon
    have hm := hm.canon
    have va := word_V ha.1
    have vb := word_V hb.1
    obtain ⟨s, h1, h2, -⟩ := C02_sub_correct_iff f pr ha.tight.rep hb.tight.rep
    obtain ⟨s', h3, -, h4⟩ := sub_exact pr ha.tight.rep hb.tight.rep
    have e : f.code.subAssign pr a b = f.code.sub pr a b := rfl
    rw [e, h1] at h3
    cases h3
    rw [Int.ediv_eq_zero_of_lt va.1 va.2, Int.ediv_eq_zero_of_lt vb.1 vb.2, mul_zero, mul_zero, sub_zero, add_zero] at h4
    obtain ⟨r, h5, -, h6⟩ := C04_mul_correct_iff f pr h2.loose hm.tight.loose
    rw [h4] at h6
    have hm0 : 0 < f.V m := lt_of_le_of_ne hm.2.2.1 (Ne.symm h0)
    have hd : f.MulDomain ((f.V a - f.V b) * f.V m) ↔ f.V b ≤ f.V a := by
      have hnn : 0 ≤ (f.V a - f.V b) * f.V m ↔ f.V b ≤ f.V a := by
        rw [mul_nonneg_iff_of_pos_right hm0]; omega
      have hlt : (f.V a - f.V b) * f.V m < f.p * f.p := by
        have := ha.2.2.2
        have := hb.2.2.1
        have := hm.2.2.2
        calc (f.V a - f.V b) * f.V m < f.p * f.V m := mul_lt_mul_of_pos_right (by omega) hm0
          _ ≤ f.p * f.p := mul_le_mul_of_nonneg_left this.le (by omega)
      rcases hf with rfl | rfl
      · rw [← hnn]
        exact ⟨fun h => h.1, fun h => ⟨h, hlt.trans (by decide +kernel)⟩⟩
      · rw [← hnn]
        exact ⟨fun h => h.1, fun h => ⟨h, hlt.trans (by decide +kernel)⟩⟩
    rw [hd] at h6
    have h7 : (f.V a).toNat < (f.V b).toNat ↔ ¬ f.V b ≤ f.V a := by
      have := ha.2.2.1
      have := hb.2.2.1
      omega
    rw [h7, ← h6]
    constructor
    · rintro ⟨s', r', e1, e2, h⟩
      rw [h1] at e1; cases e1
      rw [h5] at e2; cases e2
      exact h
    · intro h
      exact ⟨s, r, h1, h5, h⟩

/-- C70: in contrast, `normalize` goes wrong on `0 - u` only for `c - 1` of the `2 ^ n` elements `u` without a carry, that is
for none in `Mod_e521_1` and for eighteen of `2 ^ 255` in `Mod_e255_19`. -/
theorem C70_normalize :
    Nat.card {u : Elem // f.Shape 0 (2 ^ f.tb - 1) u ∧ ∃ m r, f.code.sub pr f.code.ZERO u = .ok m ∧
      f.code.normalize pr m = .ok r ∧ ¬ f.Canon (f.V m % f.p) r} = f.c - 1 := by
  have key : ∀ u, f.Shape 0 (2 ^ f.tb - 1) u → ((∃ m r, f.code.sub pr f.code.ZERO u = .ok m ∧
      f.code.normalize pr m = .ok r ∧ ¬ f.Canon (f.V m % f.p) r) ↔ f.p < f.V u) := by
    intro u hu
    have hz := zero_canon f
    have vu := word_V hu
    obtain ⟨m, h1, h2, -⟩ := C02_sub_correct_iff f pr hz.tight.rep (word_tight hu).rep
    obtain ⟨m', h3, -, h4⟩ := sub_exact pr hz.tight.rep (word_tight hu).rep
    have e : f.code.subAssign pr f.code.ZERO u = f.code.sub pr f.code.ZERO u := rfl
    rw [e, h1] at h3
    cases h3
    rw [hz.2.1, Int.zero_ediv, Int.ediv_eq_zero_of_lt vu.1 vu.2, mul_zero, mul_zero, sub_zero, add_zero, zero_sub] at h4
    obtain ⟨r, h5, -, h6⟩ := C09_normalize_correct_iff f pr h2.rep
    have h7 : f.Foldable (f.V m) ↔ ¬ f.p < f.V u := by
      have hp : f.p = 2 ^ f.n - f.c := rfl
      have hpos : 0 < f.p := by cases f <;> decide +kernel
      rw [h4, Foldable]
      by_cases h0 : f.V u = 0
      · rw [h0, neg_zero, Int.zero_emod, Int.zero_ediv, mul_zero]
        exact ⟨fun _ => by omega, fun _ => le_rfl⟩
      · have e1 : -f.V u / 2 ^ f.n = -1 := Int.ediv_eq_neg_one_of_neg_of_le (by omega) (by omega)
        have e2 := Int.emod_add_mul_ediv (-f.V u) (2 ^ f.n)
        rw [e1] at e2 ⊢
        generalize (2 : Int) ^ f.n = N at *
        omega
    rw [← not_not (a := f.p < f.V u), ← h7, ← h6]
    constructor
    · rintro ⟨m', r', e1, e2, h⟩
      rw [h1] at e1; cases e1
      rw [h5] at e2; cases e2
      exact h
    · intro h
      exact ⟨m, r, h1, h5, h⟩
  have hpN : f.pN + f.c = 2 ^ f.n := by have := pN_add f; exact_mod_cast this
  have hp := p_eq f
  have ex : ∀ v : Nat, v < 2 ^ f.n → ∃ u, f.Shape 0 (2 ^ f.tb - 1) u ∧ f.V u = v := by
    intro v hv
    have hn : (2 : Nat) ^ f.n ≤ 2 ^ (8 * f.nbytes) := by cases f <;> decide +kernel
    have hz := Rep.isWords (Tight.rep (zero_canon f).tight)
    have h1 := leVal_leBytes f.nbytes v (hv.trans_le hn)
    have hl := leBytes_length f.nbytes v
    have ht : (leBytes f.nbytes v).take f.nbytes = leBytes f.nbytes v := List.take_of_length_le hl.le
    obtain ⟨a, -, h3, h4⟩ := C12_unpack_small f .debug hz (leBytes_isBytes f.nbytes v) hl.ge
      (by rw [ht, h1]; exact_mod_cast hv)
    exact ⟨a, h3, by rw [h4, ht, h1]⟩
  have e : Nat.card {u : Elem // f.Shape 0 (2 ^ f.tb - 1) u ∧ ∃ m r, f.code.sub pr f.code.ZERO u = .ok m ∧
      f.code.normalize pr m = .ok r ∧ ¬ f.Canon (f.V m % f.p) r} = Nat.card (Finset.Ioo f.pN (2 ^ f.n)) := by
    refine Nat.card_congr (Equiv.ofBijective (fun u => ⟨(f.V u.1).toNat, ?_⟩) ⟨?_, ?_⟩)
    · have h1 := word_V u.2.1
      have h2 := (key u.1 u.2.1).1 u.2.2
      have h3 : f.V u.1 < ((2 ^ f.n : Nat) : Int) := by push_cast; exact h1.2
      rw [Finset.mem_Ioo]
      omega
    · intro u u' h
      have h1 := word_V u.2.1
      have h1' := word_V u'.2.1
      have h2 := congrArg (fun x : Finset.Ioo f.pN (2 ^ f.n) => (x : Nat)) h
      dsimp only at h2
      exact Subtype.ext (Shape.ext u.2.1 u'.2.1 (by omega))
    · rintro ⟨v, hv⟩
      rw [Finset.mem_Ioo] at hv
      obtain ⟨u, h1, h2⟩ := ex v hv.2
      refine ⟨⟨u, h1, (key u h1).2 (by omega)⟩, Subtype.ext ?_⟩
      show (f.V u).toNat = v
      omega
  rw [e, Nat.card_eq_fintype_card, Fintype.card_coe, Nat.card_Ioo]
  omega

/-- What is wrong in half the cases for one type, … -/
example : 2 * (Nat.card {q : Elem × Elem // (Canonical .e255_19 q.1 ∧ Canonical .e255_19 q.2) ∧
    ∃ s r, Fld.e255_19.code.add pr q.1 q.2 = .ok s ∧ Fld.e255_19.code.sub pr Fld.e255_19.code.ONE s = .ok r ∧
      ¬ Fld.e255_19.Denotes r (Fld.e255_19.V Fld.e255_19.code.ONE - (Fld.e255_19.V q.1 + Fld.e255_19.V q.2))} : Int) =
    (2 ^ 255 - 38) * (2 ^ 255 - 39) := by
  rw [C70_sub .e255_19 pr (one_canon _).tight.rep]
  rfl

example : 2 * (Nat.card {q : Elem × Elem // (Canonical .e414_17 q.1 ∧ Canonical .e414_17 q.2) ∧
    ∃ s r, Fld.e414_17.code.add pr q.1 q.2 = .ok s ∧ Fld.e414_17.code.smallMul pr s 2 = .ok r ∧
      ¬ Fld.e414_17.Denotes r ((Fld.e414_17.V q.1 + Fld.e414_17.V q.2) * 2)} : Int) =
    (2 ^ 414 - 34) * (2 ^ 414 - 35) := by
  rw [C70_small_mul .e414_17 pr (by decide) (by decide)]
  rfl

example : 2 * (Nat.card {q : Elem × Elem // (Canonical .e251_9 q.1 ∧ Canonical .e251_9 q.2) ∧
    ∃ s r, Fld.e251_9.code.sub pr q.1 q.2 = .ok s ∧ Fld.e251_9.code.mul pr s Fld.e251_9.code.ONE = .ok r ∧
      ¬ Fld.e251_9.Denotes r ((Fld.e251_9.V q.1 - Fld.e251_9.V q.2) * Fld.e251_9.V Fld.e251_9.code.ONE)} : Int) =
    (2 ^ 251 - 9) * (2 ^ 251 - 10) := by
  rw [C70_mul .e251_9 pr (.inr rfl) ⟨_, one_canon _⟩ (by rw [(one_canon .e251_9).2.1]; decide)]
  rfl

/-- … and what is wrong in eighteen. -/
example : Nat.card {u : Elem // Fld.e255_19.Shape 0 (2 ^ Fld.e255_19.tb - 1) u ∧ ∃ m r,
    Fld.e255_19.code.sub pr Fld.e255_19.code.ZERO u = .ok m ∧ Fld.e255_19.code.normalize pr m = .ok r ∧
      ¬ Fld.e255_19.Canon (Fld.e255_19.V m % Fld.e255_19.p) r} = 18 := C70_normalize .e255_19 pr

end Verif
