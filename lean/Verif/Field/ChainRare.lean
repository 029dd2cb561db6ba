import Verif.Field.ChainValue
import Verif.Props.Power
import Mathlib.Data.Set.Card
import Mathlib.Data.Int.Interval
import Mathlib.Data.Fintype.Card
import Mathlib.Algebra.Order.BigOperators.Group.Finset

/-!
# When the chains of `Mod_e251_9` are right (helper lemmas)

Results of `*` and `square` are below `2^252 + 2^228`, so a product of two of them is
below `2^504`, where `*` is right, unless the second operand is at least
`2^252 - 2^228`.  The second operands of the chains are powers `a^(2^j)` of the
argument, and the map that takes `a` to `a^(2^j)` modulo `p` is at most two to one.
-/

namespace Verif
open Fld FieldCode

namespace Fld

/-- The exponent of a register, for the chains that square and multiply only. -/
def expOps : AbsOps Nat where
  sq e := some (2 * e)
  mul e e' := some (e + e')
  sub _ _ := none
  add _ _ := none
  quart _ := none

/-- The exponents of the second operands of the multiplications. -/
def secondStep (A : Tree Nat) : CStep → List Nat
  | .mulAssign _ y => ((A.get y).map fun e => [e]).getD []
  | .retMul _ y => ((A.get y).map fun e => [e]).getD []
  | _ => []

def seconds : List CStep → Tree Nat → Option (List Nat)
  | [], _ => some []
  | s :: rest, A => (absStep expOps A s).bind fun A' =>
      (seconds rest A').map fun l => secondStep A s ++ l

/-- A result of `*` or `square` with the residue of `X ^ e`. -/
def ExpRel (X : Int) (e : Nat) (v : Elem) : Prop :=
  e251_9.Tight v ∧ 0 ≤ e251_9.V v ∧ e251_9.V v < 2 ^ 252 + 2 ^ 228 ∧
    e251_9.V v ≡ X ^ e [ZMOD e251_9.p]

/-- No result of `*` or `square` with this residue is dangerous as an operand. -/
def Mild (x : Int) : Prop :=
  ∀ v : Int, 2 ^ 252 - 2 ^ 228 ≤ v → v < 2 ^ 252 + 2 ^ 228 → ¬ v ≡ x [ZMOD e251_9.p]

theorem sqVal_e251_lt {x : Int} (h0 : 0 ≤ x) (h1 : x < 2 ^ 505) :
    0 ≤ e251_9.sqVal x ∧ e251_9.sqVal x < 2 ^ 252 + 2 ^ 228 := by
  constructor
  · have := nonneg_aux (M := 2 ^ 224) (T := 2 ^ 27) (c := 9) h0 (by positivity) (by positivity)
      (by norm_num)
    exact this
  simp only [sqVal]
  have e := Int.emod_add_mul_ediv x (2 ^ 251)
  have h1' := Int.emod_lt_of_pos x (show (0 : Int) < 2 ^ 251 by positivity)
  have hq : x / 2 ^ 251 < 2 ^ 254 := by
    rw [Int.ediv_lt_iff_lt_mul (by positivity)]
    rw [← pow_add]
    exact h1
  have hp : e251_9.p = 2 ^ 251 - 9 := rfl
  rw [hp]
  generalize x / 2 ^ 251 = q at *
  have e2 := Int.emod_add_mul_ediv q (2 ^ 224)
  have h2 := Int.emod_lt_of_pos q (show (0 : Int) < 2 ^ 224 by positivity)
  have h20 := Int.emod_nonneg q (show (2 : Int) ^ 224 ≠ 0 by positivity)
  generalize q / 2 ^ 224 = u at *
  have e3 := Int.emod_add_mul_ediv (9 * u) (2 ^ 27)
  have h3 := Int.emod_lt_of_pos (9 * u) (show (0 : Int) < 2 ^ 27 by positivity)
  have h30 := Int.emod_nonneg (9 * u) (show (2 : Int) ^ 27 ≠ 0 by positivity)
  generalize 9 * u / 2 ^ 27 = t at *
  generalize 9 * u % 2 ^ 27 = s at *
  generalize q % 2 ^ 224 = q0 at *
  generalize x % 2 ^ 251 = y0 at *
  have hs : s ≤ 2 ^ 27 - 1 := by omega
  norm_num at *
  omega

theorem exp_sound (pr : Profile) (X : Int) (q : Elem → Res Elem) :
    Sound e251_9.code pr q expOps e251_9.symM (ExpRel X) where
  sq := by
    rintro a b v h1 ⟨h2, h3, h4, h5⟩
    simp only [expOps, Option.some.injEq] at h1
    subst h1
    obtain ⟨r, g1, g2, -, g3⟩ := sym_square pr h2
    obtain ⟨r', g1', -, g4⟩ := square_value pr (Tight.loose h2)
    obtain rfl := ok_unique g1 g1'
    have := mul_lt_mul'' h4 h4 h3 h3
    obtain ⟨b1, b2⟩ := sqVal_e251_lt (mul_nonneg h3 h3) (this.trans (by decide +kernel))
    rw [← g4] at b1 b2
    refine ⟨r, g1, g2, b1, b2, ?_⟩
    rw [two_mul, pow_add]
    exact g3.trans (h5.mul h5)
  mul := by
    rintro a a' b v w h1 ⟨h2, h3, h4, h5⟩ ⟨h2', h3', h4', h5'⟩ hM
    simp only [expOps, Option.some.injEq] at h1
    subst h1
    obtain ⟨r, g1, g2, -, g3⟩ := sym_mul pr h2 h2' (fun h => by cases h) hM
    obtain ⟨r', g1', -, g4⟩ := mul_value pr (Tight.loose h2) (Tight.loose h2')
    obtain rfl := ok_unique g1 g1'
    refine ⟨r, g1, g2, g4 ▸ mulVal_nonneg _ (mul_nonneg h3 h3'), g4 ▸ mulVal_e251_lt _, ?_⟩
    rw [pow_add]
    exact g3.trans (h5.mul h5')
  sub := by intro a a' b v w h; cases h
  add := by intro a a' b v w h; cases h
  quart := by intro a b v h; cases h

theorem symM_of_mild {X : Int} {e e' : Nat} {v w : Elem} (hv : ExpRel X e v)
    (hw : ExpRel X e' w) (hm : Mild (X ^ e')) : e251_9.symM v w := by
  intro _
  obtain ⟨-, h3, h4, -⟩ := hv
  obtain ⟨-, h3', h4', h5'⟩ := hw
  refine ⟨mul_nonneg h3 h3', ?_⟩
  have : e251_9.V w < 2 ^ 252 - 2 ^ 228 := by
    by_contra h
    exact hm _ (not_lt.mp h) h4' h5'
  exact (mul_lt_mul'' h4 this h3 h3').trans (by decide +kernel)

theorem absStep_bind {α : Type} {S : AbsOps α} {A A' : Tree α} {x y : Nat}
    (h : absStep S A (.mulAssign x y) = some A' ∨ absStep S A (.retMul x y) = some A') :
    ∃ a b, A.get x = some a ∧ A.get y = some b := by
  rcases h with h | h <;>
  · simp only [absStep, Option.bind_eq_bind, Option.bind_eq_some_iff] at h
    obtain ⟨a, h1, b, h2, -⟩ := h
    exact ⟨a, b, h1, h2⟩

theorem safe_of_mild (pr : Profile) (X : Int) (q : Elem → Res Elem) (s : List CStep) :
    ∀ {A : Tree Nat} {ρ : Regs} {l : List Nat}, Rel (ExpRel X) A ρ → seconds s A = some l →
      (∀ e ∈ l, Mild (X ^ e)) → SafeSteps e251_9.code pr q e251_9.symM s ρ := by
  induction s with
  | nil => intro A ρ l _ _ _; trivial
  | cons s rest ih =>
    intro A ρ l hr hl hm
    simp only [seconds, Option.bind_eq_some_iff, Option.map_eq_some_iff] at hl
    obtain ⟨A', h1, l', h2, rfl⟩ := hl
    have hs : SafeStep e251_9.symM ρ s := by
      have key : ∀ x y, (absStep expOps A (.mulAssign x y) = some A' ∨
          absStep expOps A (.retMul x y) = some A') →
          (∀ e, A.get y = some e → Mild (X ^ e)) →
          ∀ a b, ρ.get x = some a → ρ.get y = some b → e251_9.symM a b := by
        intro x y h hy a b ha hb
        obtain ⟨e, e', he, he'⟩ := absStep_bind h
        obtain ⟨v, g1, g2⟩ := hr _ _ he
        obtain ⟨w, g1', g2'⟩ := hr _ _ he'
        rw [g1] at ha; rw [g1'] at hb
        cases ha; cases hb
        exact symM_of_mild g2 g2' (hy _ he')
      cases s with
      | mulAssign x y =>
        exact key x y (.inl h1) fun e he => hm e (by simp [secondStep, he])
      | retMul x y =>
        exact key x y (.inr h1) fun e he => hm e (by simp [secondStep, he])
      | _ => trivial
    obtain ⟨ρ1, h3, h4⟩ := sim_step (exp_sound pr X q) hr h1 hs
    refine ⟨hs, fun ρ' h => ?_⟩
    rw [h3] at h; cases h
    exact ih h4 h2 fun e he => hm e (by simp [he])

/-- Initial exponents. -/
def expInit : Tree Nat := ((Tree.leaf : Tree Nat).set 0 1).set 1 0

/-- Carry-free, or a result of `*` or `square`. -/
def Small (a : Elem) : Prop :=
  e251_9.Tight a ∧ 0 ≤ e251_9.V a ∧ e251_9.V a < 2 ^ 252 + 2 ^ 228

theorem Small.of_canon {x : Int} {a : Elem} (ha : e251_9.Canon x a) : Small a := by
  have hp : e251_9.p < 2 ^ 252 + 2 ^ 228 := by decide +kernel
  exact ⟨ha.tight, by rw [ha.2.1]; exact ha.2.2.1, by rw [ha.2.1]; exact ha.2.2.2.trans hp⟩

theorem expInit_rel {a : Elem} (ha : Small a) :
    Rel (ExpRel (e251_9.V a)) expInit (e251_9.code.initRegs a) := by
  have h0 : Rel (ExpRel (e251_9.V a)) (Tree.leaf : Tree Nat) (Tree.leaf : Regs) := by
    intro i b hb
    rw [Tree.get_leaf] at hb
    cases hb
  have h1 := h0.set 0 (a := (1 : Nat)) (v := a) ⟨ha.1, ha.2.1, ha.2.2, by rw [pow_one]⟩
  have ho := one_canon e251_9
  have h2 := h1.set 1 (a := (0 : Nat)) (v := e251_9.code.ONE)
    ⟨ho.tight, by rw [ho.2.1]; norm_num, by rw [ho.2.1]; norm_num, by
      rw [ho.2.1, pow_zero]⟩
  exact h2

/-- The powers that the three chains multiply by. -/
def Rare (x : Int) : Prop := ∃ j, j < 250 ∧ ¬ Mild (x ^ 2 ^ (j + 1))

/-- All exponents in the list are `2^1, …, 2^250`. -/
def inList (l : Option (List Nat)) : Bool :=
  match l with
  | some l => l.all fun e => (List.range 250).any fun j => e == 2 ^ (j + 1)
  | none => false

set_option maxRecDepth 100000 in
theorem seconds_ok : inList (seconds (flatten e251_9.code.invertC) expInit) = true ∧
    inList (seconds (flatten e251_9.code.legendreC) expInit) = true ∧
    inList (seconds (flatten e251_9.code.sqrtC) expInit) = true := by
  decide +kernel

theorem Rare.congr {x y : Int} (h : x ≡ y [ZMOD e251_9.p]) (hx : Rare x) : Rare y := by
  obtain ⟨j, hj, hm⟩ := hx
  exact ⟨j, hj, fun g => hm fun v h1 h2 h3 => g v h1 h2 (h3.trans (h.pow _))⟩

theorem safe_of_list {a : Elem} (ha : Small a) (hr : ¬ Rare (e251_9.V a)) {c : Chain}
    (hc : inList (seconds (flatten c) expInit) = true) : e251_9.ChainArg c a := by
  refine ⟨ha.1, fun h => (by cases h), fun _ => ?_⟩
  simp only [inList] at hc
  cases hl : seconds (flatten c) expInit with
  | none => rw [hl] at hc; cases hc
  | some l =>
    rw [hl] at hc
    refine safe_of_mild .debug _ _ _ (expInit_rel ha) hl fun e he => ?_
    have := List.all_eq_true.mp hc e he
    obtain ⟨j, h1, h2⟩ := List.any_eq_true.mp this
    have h3 : e = 2 ^ (j + 1) := by simpa using h2
    by_contra h
    rw [h3] at h
    exact hr ⟨j, List.mem_range.mp h1, h⟩

/-! ### Counting -/

theorem pow_two_pow_fibre {j : Nat} {x y : ZMod e251_9.pN} (h : x ^ 2 ^ (j + 1) = y ^ 2 ^ (j + 1)) :
    x = y ∨ x = -y := by
  by_cases hy : y = 0
  · left
    rw [hy, zero_pow (by positivity)] at h
    rw [hy]
    exact eq_zero_of_pow_eq_zero h
  have h1 : (x / y) ^ 2 ^ (j + 1) = 1 := by
    rw [div_pow, h, div_self (pow_ne_zero _ hy)]
  have hxy : x / y ≠ 0 := by
    intro h0
    rw [h0, zero_pow (by positivity)] at h1
    exact zero_ne_one h1
  have h2 := ZMod.pow_card_sub_one_eq_one hxy
  have d1 := orderOf_dvd_of_pow_eq_one h1
  have d2 := orderOf_dvd_of_pow_eq_one h2
  have d3 : orderOf (x / y) ∣ 2 := by
    have e : e251_9.pN - 1 = 2 * ((e251_9.pN - 1) / 2) := by decide +kernel
    have ho : ((e251_9.pN - 1) / 2) % 2 = 1 := by decide +kernel
    rw [e] at d2
    rw [pow_succ'] at d1
    have := Nat.dvd_gcd d1 d2
    rw [Nat.gcd_mul_left, Nat.Coprime.pow_left j (Nat.coprime_two_left.mpr (Nat.odd_iff.mpr ho))] at this
    simpa using this
  have h3 := orderOf_dvd_iff_pow_eq_one.mp d3
  rw [div_pow, div_eq_one_iff_eq (pow_ne_zero _ hy)] at h3
  exact sq_eq_sq_iff_eq_or_eq_neg.mp h3

open Classical in
/-- The residues with `x ^ 2 ^ (j + 1)` in the dangerous range. -/
theorem card_fibres (j : Nat) :
    ((Finset.univ : Finset (ZMod e251_9.pN)).filter fun x => ∃ v : Int,
      2 ^ 252 - 2 ^ 228 ≤ v ∧ v < 2 ^ 252 + 2 ^ 228 ∧
        (v : ZMod e251_9.pN) = x ^ 2 ^ (j + 1)).card ≤ 2 * 2 ^ 229 := by
  set t : Finset (ZMod e251_9.pN) :=
    (Finset.Ico (2 ^ 252 - 2 ^ 228 : Int) (2 ^ 252 + 2 ^ 228)).image
      fun v : Int => (v : ZMod e251_9.pN) with ht
  have hcard : t.card ≤ 2 ^ 229 := by
    refine Finset.card_image_le.trans ?_
    rw [Int.card_Ico]
    norm_num
  refine (Finset.card_le_mul_card_image_of_maps_to
    (f := fun x : ZMod e251_9.pN => x ^ 2 ^ (j + 1)) (t := t) ?_ 2 ?_).trans
      (Nat.mul_le_mul_left 2 hcard)
  · intro x hx
    obtain ⟨-, v, h1, h2, h3⟩ := Finset.mem_filter.mp hx
    exact Finset.mem_image.mpr ⟨v, Finset.mem_Ico.mpr ⟨h1, h2⟩, h3⟩
  · intro b _
    by_cases h : ∃ y : ZMod e251_9.pN, y ^ 2 ^ (j + 1) = b
    · obtain ⟨y, rfl⟩ := h
      refine (Finset.card_le_card (t := {y, -y}) ?_).trans Finset.card_le_two
      intro x hx
      have := (Finset.mem_filter.mp hx).2
      rcases pow_two_pow_fibre this with h | h <;> simp [h]
    · rw [Finset.card_eq_zero.mpr]
      · norm_num
      · rw [Finset.filter_eq_empty_iff]
        exact fun x _ hx => h ⟨x, hx⟩

theorem Rare.powers {n : Nat} (h : Rare (n : Int)) : ∃ j, j < 250 ∧ ∃ v : Int,
    2 ^ 252 - 2 ^ 228 ≤ v ∧ v < 2 ^ 252 + 2 ^ 228 ∧
      (v : ZMod e251_9.pN) = (n : ZMod e251_9.pN) ^ 2 ^ (j + 1) := by
  unfold Rare at h
  obtain ⟨j, hj, hn⟩ := h
  simp only [Mild, not_forall, not_not] at hn
  obtain ⟨v, g1, g2, g3⟩ := hn
  refine ⟨j, hj, v, g1, g2, ?_⟩
  rw [modEq_iff] at g3
  rw [g3]
  push_cast
  rfl

open Classical in
theorem union_card {p : Nat} [NeZero p] {R : Nat → Prop} {P : Nat → ZMod p → Prop} {k m : Nat}
    (h : ∀ n, R n → ∃ j, j < k ∧ P j n)
    (hc : ∀ j, ((Finset.univ : Finset (ZMod p)).filter (P j)).card ≤ m) :
    Set.ncard {n : Nat | n < p ∧ R n} ≤ k * m := by
  have h1 := Finset.card_biUnion_le_card_mul (Finset.range k)
    (fun j => (Finset.univ : Finset (ZMod p)).filter (P j)) m fun j _ => hc j
  rw [Finset.card_range] at h1
  refine le_trans ?_ h1
  rw [← Set.ncard_coe_finset]
  refine Set.ncard_le_ncard_of_injOn (fun n : Nat => (n : ZMod p)) ?_ ?_
    (Finset.finite_toSet _)
  · intro n hn
    obtain ⟨j, hj, hP⟩ := h n hn.2
    exact Finset.mem_coe.mpr (Finset.mem_biUnion.mpr ⟨j, Finset.mem_range.mpr hj,
      Finset.mem_filter.mpr ⟨Finset.mem_univ _, hP⟩⟩)
  · intro a ha b hb h
    have := (ZMod.natCast_eq_natCast_iff' _ _ _).mp h
    rwa [Nat.mod_eq_of_lt ha.1, Nat.mod_eq_of_lt hb.1] at this

theorem rare_card :
    Set.ncard {n : Nat | n < e251_9.pN ∧ Rare (n : Int)} ≤ 250 * (2 * 2 ^ 229) :=
  union_card (fun _ => Rare.powers) card_fibres

end Fld
end Verif
