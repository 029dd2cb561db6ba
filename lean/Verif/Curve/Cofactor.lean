import Verif.Curve.Count
import Verif.Curve.Base
import Verif.Curve.Montgomery
import Verif.Prime.OrderCerts
import Mathlib.SetTheory.Cardinal.Finite

/-!
# Facts about the ten curves used for their group orders (helper lemmas)
-/

namespace Verif

set_option maxRecDepth 100000

/-- Euler's criterion, by evaluation. -/
theorem Fld.nonsquare_of_powM (f : Fld) (a : Nat)
    (h : Prime.powM f.pN f.n a (f.pN / 2) 1 = f.pN - 1) : ¬ IsSquare (a : ZMod f.pN) := by
  have h' := Prime.powM_modEq f.pN f.n a (f.pN / 2) 1 (by cases f <;> decide +kernel)
  rw [h, one_mul, ← ZMod.natCast_eq_natCast_iff] at h'
  have hp := f.pN_facts.1
  rw [Nat.cast_sub (by omega), ZMod.natCast_self, zero_sub, Nat.cast_pow, Nat.cast_one] at h'
  have h2 : (2 : ZMod f.pN) ≠ 0 := by
    intro h2
    have : ((2 : Nat) : ZMod f.pN) = 0 := by exact_mod_cast h2
    rw [ZMod.natCast_eq_zero_iff] at this
    exact absurd (Nat.le_of_dvd (by norm_num) this) (by omega)
  have h0 : (a : ZMod f.pN) ≠ 0 := by
    intro h0
    rw [h0, zero_pow (by omega)] at h'
    exact one_ne_zero (neg_eq_zero.1 h')
  intro hs
  rw [ZMod.euler_criterion _ h0] at hs
  rw [hs] at h'
  exact h2 (by linear_combination -h')

/-- The same for an integer. -/
theorem Fld.nonsquare_of_powM_int (f : Fld) (a : Int)
    (h : Prime.powM f.pN f.n (a % f.p).toNat (f.pN / 2) 1 = f.pN - 1) :
    ¬ IsSquare (a : ZMod f.pN) := by
  have h1 := f.nonsquare_of_powM _ h
  have h0 : (0 : Int) ≤ a % f.p := Int.emod_nonneg _ (by cases f <;> decide +kernel)
  have e : (((a % f.p).toNat : Nat) : Int) = a % f.p := Int.toNat_of_nonneg h0
  have e2 : ((a % f.p : Int) : ZMod f.pN) = (a : ZMod f.pN) := Fld.modEq_iff.1 (Int.mod_modEq _ _)
  rw [← Int.cast_natCast, e, e2] at h1
  exact h1

namespace Crv

/-- The published cofactor (SafeCurves). -/
def cofactor : Crv → Nat
  | e222 => 4 | curve1174 => 4 | e382 => 4 | curve41417 => 8 | e521 => 4

/-- Its logarithm. -/
def logCof : Crv → Nat
  | curve41417 => 3 | _ => 2

theorem cofactor_eq (c : Crv) : c.cofactor = 2 ^ c.logCof := by cases c <;> rfl

/-- A square root of `1 - d` on Curve41417. -/
def root41417 : Int :=
  3667480051099766805651732208645070678527832916323340630451256304914882908673326931278498844863250882826880527212740259128412

/-- Coordinate of a point of order eight on Curve41417. -/
def coord41417 : Nat :=
  18302992829279747471532238171036071176778188458438267495017394321851620769753844485967252324942824182112406962249859599265313

theorem one_sub_d_nonsquare (c : Crv) (hc : c ≠ curve41417) : ¬ IsSquare (1 - c.d) := by
  have h := c.fld.nonsquare_of_powM_int (1 - c.dInt) (by
    cases c <;> first | exact absurd rfl hc | decide +kernel)
  rw [Int.cast_sub, Int.cast_one] at h
  exact h

theorem cast_eq_of_emod {c : Crv} {a b : Int} (h : (a - b) % c.fld.p = 0) :
    (a : c.K) = (b : c.K) := by
  rw [← Fld.modEq_iff]
  exact (Int.modEq_of_dvd (Int.dvd_of_emod_eq_zero h)).symm

theorem no_sixteen (y : curve41417.K) (h : (curve41417.d * y ^ 2 - 1) ^ 2 = 1 - curve41417.d) :
    ¬ IsSquare ((1 - curve41417.d) * (1 - y ^ 2)) := by
  have hr := cast_eq_of_emod (c := curve41417) (a := root41417 ^ 2) (b := 1 - curve41417.dInt)
    (by decide +kernel)
  have n1 := curve41417.fld.nonsquare_of_powM_int ((1 - curve41417.dInt) * curve41417.dInt *
    (curve41417.dInt - 1 - root41417)) (by decide +kernel)
  have n2 := curve41417.fld.nonsquare_of_powM_int (curve41417.dInt * (1 - root41417))
    (by decide +kernel)
  simp only [Int.cast_sub, Int.cast_mul, Int.cast_one, Int.cast_pow] at hr n1 n2
  change ((root41417 : Int) : curve41417.K) ^ 2 = 1 - curve41417.d at hr
  change ¬ IsSquare ((1 - curve41417.d) * curve41417.d *
    (curve41417.d - 1 - ((root41417 : Int) : curve41417.K))) at n1
  change ¬ IsSquare (curve41417.d * (1 - ((root41417 : Int) : curve41417.K))) at n2
  generalize ((root41417 : Int) : curve41417.K) = s at *
  generalize curve41417.d = d at *
  rw [← hr] at h
  rcases sq_eq_sq_iff_eq_or_eq_neg.1 h with h | h
  · rintro ⟨r, h3⟩
    exact n1 ⟨d * r, by linear_combination d ^ 2 * h3 + (1 - d) * d * h⟩
  · exfalso
    exact n2 ⟨d * y, by linear_combination (-d) * h⟩

/-- A point of order eight on Curve41417. -/
def eight41417 : curve41417.Point :=
  ⟨((coord41417 : Int) : curve41417.K), ((coord41417 : Int) : curve41417.K),
    on_of_onB _ (by decide +kernel)⟩

theorem eight_order : 2 ^ 3 • eight41417 = 0 ∧ 2 ^ 2 • eight41417 ≠ 0 := by
  have hx : ((coord41417 : Nat) : curve41417.K) = eight41417.x :=
    (Int.cast_natCast _).symm
  have hy : ((coord41417 : Nat) : curve41417.K) = eight41417.y :=
    (Int.cast_natCast _).symm
  constructor
  · exact (smulZero_iff hx hy (by decide +kernel)).1 (by decide +kernel)
  · intro h
    have := (smulZero_iff hx hy (by decide +kernel)).2 h
    exact absurd this (by decide +kernel)

/-- A point of order `2 ^ logCof`. -/
theorem exists_order (c : Crv) : ∃ P : c.Point, addOrderOf P = c.cofactor := by
  have : Fact (Nat.Prime 2) := ⟨Nat.prime_two⟩
  rw [cofactor_eq]
  by_cases hc : c = curve41417
  · subst hc
    exact ⟨eight41417, addOrderOf_eq_prime_pow eight_order.2 eight_order.1⟩
  · have e : c.logCof = 2 := by cases c <;> first | exact absurd rfl hc | rfl
    rw [e]
    exact ⟨EdPoint.four, addOrderOf_eq_prime_pow EdPoint.four_order.2 EdPoint.four_order.1⟩

theorem not_dvd (c : Crv) : ¬ 2 * c.cofactor ∣ Nat.card c.Point := by
  rw [cofactor_eq, ← pow_succ']
  apply EdPoint.not_dvd_card
  by_cases hc : c = curve41417
  · subst hc
    exact EdPoint.no_order_sixteen no_sixteen
  · have e : c.logCof = 2 := by cases c <;> first | exact absurd rfl hc | rfl
    rw [e]
    exact EdPoint.no_order_eight (c.one_sub_d_nonsquare hc)

end Crv

namespace Mont
open WeierstrassCurve.Affine

variable (c : Mont)

/-- The `x` coordinate, none at infinity. -/
def xCoord : c.curve.Point → Option c.K
  | .zero => none
  | .some x _ _ => some x

/-- The `y` coordinate, none at infinity. -/
def yCoord : c.curve.Point → Option c.K
  | .zero => none
  | .some _ y _ => some y

theorem coord_injective : Function.Injective fun P => (c.xCoord P, c.yCoord P) := by
  rintro (_ | ⟨x, y, h⟩) (_ | ⟨x', y', h'⟩) e <;> simp [xCoord, yCoord] at e
  · rfl
  · obtain ⟨rfl, rfl⟩ := e; rfl

instance : Finite c.curve.Point := Finite.of_injective _ c.coord_injective

theorem card_le : Nat.card c.curve.Point ≤ 2 * (c.fld.pN + 1) := by
  classical
  have : Fintype c.curve.Point := Fintype.ofFinite _
  have : NeZero c.fld.pN := ⟨by have := c.fld.pN_facts.1; omega⟩
  have hc : Fintype.card (Option c.K) = c.fld.pN + 1 := by rw [Fintype.card_option, ZMod.card]
  rw [Nat.card_eq_fintype_card, ← hc, ← Finset.card_univ]
  refine (Finset.card_le_mul_card_image (f := c.xCoord) _ 2 ?_).trans
    (Nat.mul_le_mul_left _ (Finset.card_le_univ _))
  intro x hx
  obtain ⟨P, -, hP⟩ := Finset.mem_image.1 hx
  have hsub : (Finset.univ.filter fun Q => c.xCoord Q = x).image (fun Q => c.yCoord Q) ⊆
      {c.yCoord P, (c.yCoord P).map fun y => -y} := by
    intro y hy
    simp only [Finset.mem_image, Finset.mem_filter, Finset.mem_univ, true_and] at hy
    obtain ⟨Q, h1, rfl⟩ := hy
    simp only [Finset.mem_insert, Finset.mem_singleton]
    have h2 := h1.trans hP.symm
    rcases P with _ | ⟨x1, y1, h3⟩ <;> rcases Q with _ | ⟨x2, y2, hQ⟩ <;>
      simp only [xCoord, reduceCtorEq, Option.some.injEq] at h2
    · left; rfl
    · simp only [yCoord, Option.some.injEq, Option.map_some]
      have e1 := ((nonsingular_iff _ _).1 h3).1
      have e2 := ((nonsingular_iff _ _).1 hQ).1
      rw [equation_iff] at e1 e2
      simp only [curve] at e1 e2
      subst h2
      exact sq_eq_sq_iff_eq_or_eq_neg.1 (by linear_combination e2 - e1)
  rw [← Finset.card_image_of_injOn (f := c.yCoord)]
  · exact (Finset.card_le_card hsub).trans Finset.card_le_two
  · intro Q hQ R hR h
    simp only [Finset.coe_filter, Finset.mem_univ, true_and, Set.mem_ofPred_eq] at hQ hR
    exact c.coord_injective (Prod.ext (hQ.trans hR.symm) h)

/-- A point of order eight. -/
def eightX : Mont → Int
  | m221 => 2229621114584131524523363298655577602545095584406778796113179185679
  | curve25519 => 325606250916557431795983626356110631294008115727848805560023387167927233504
  | m383 => 15481668717901741159230822849787947353862331603438031718769783668625617311919329978338410094552524191477025358808762
  | curve383187 => 5906500604351454880397014944404165768927126668734468311273560120346317336887618116451017464030352529914688855116834
  | m511 => 2105196789276404324375755370606497142940586854487731651294127371204014108072686513779261054097587567027831856984594682600822308496586920842626807757896391

@[inherit_doc eightX]
def eightY : Mont → Int
  | m221 => 1302447574548797939963829767245001364869239467618490705715626089692
  | curve25519 => 32026303591712962751241307547882981359278212717910236697706316503764922500307
  | m383 => 19262508890865278811016486474403166586892423731822887343458494309676905561303785412822705256310747723966341072045441
  | curve383187 => 137693411184816424235211648932822474126735602932677624008130589194514067473078084530627757984689447461197790929163
  | m511 => 6273983723198486451218981913180620567726889470676306960360427990193325138559876086995500171596183867072419253449316468815468582506215656520958991009127505

theorem nonsingular_of {x y : Int}
    (h1 : (y ^ 2 - (x ^ 3 + c.A * x ^ 2 + x)) % c.fld.p = 0) (h2 : ¬ (2 * y) % c.fld.p = 0) :
    c.curve.Nonsingular (x : c.K) (y : c.K) := by
  rw [nonsingular_iff, equation_iff]
  rw [← cast_eq_zero] at h1 h2
  push_cast at h1 h2
  simp only [curve]
  constructor
  · linear_combination h1
  · right
    intro h'
    apply h2
    linear_combination h'

theorem eight_on : c.curve.Nonsingular (c.eightX : c.K) (c.eightY : c.K) :=
  c.nonsingular_of (by cases c <;> decide +kernel) (by cases c <;> decide +kernel)

theorem exists_order : ∃ P : c.curve.Point, addOrderOf P = 8 := by
  have : Fact (Nat.Prime 2) := ⟨Nat.prime_two⟩
  refine ⟨.some _ _ c.eight_on, addOrderOf_eq_prime_pow (p := 2) (n := 2) ?_ ?_⟩
  · obtain ⟨r, -, x, y, h, e, -⟩ := Proj.smul_is (c := c) c.eight_on (k := fun _ => true)
      [false, false] 1 ⟨c.eightX, c.eightY, 1⟩ ⟨_, _, c.eight_on, by rw [one_smul], by simp⟩
      (by cases c <;> decide +kernel)
    change 4 • _ = _ at e
    intro h0
    rw [show (2 : Nat) ^ 2 = 4 by norm_num, e] at h0
    exact Point.some_ne_zero _ h0
  · exact minus_of_minusB (c := c) c.eight_on (n := 2) (m := 7) (by cases c <;> decide +kernel)

end Mont
end Verif
