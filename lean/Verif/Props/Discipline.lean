import Verif.Props.Refine
import Verif.Props.Exceptional

/-!
# Property C42: normalizing after every operation is enough

Where C25 depends on an interval analysis, a simple rule of use makes every computation
right: call `normalize` after every operation, and write `ZERO - x` in place of `-x`.
`Ex.disc` rewrites a computation in this way.  The rule covers subtraction and negation, and
all nine types, except that in `Mod_e251_9` division, inversion, the Legendre symbol and `sqrt` are
left out (their products of intermediate values can exceed the domain of `*`).
-/

namespace Verif
open Fld FieldCode

namespace Ex

/-- The same computation with `normalize` after every operation. -/
def disc : Ex → Ex
  | zero => zero
  | one => one
  | mOne => mOne
  | rand rng => rand rng
  | modulus => normalize modulus
  | bytes bs => normalize (bytes bs)
  | add a b => normalize (add a.disc b.disc)
  | sub a b => normalize (sub a.disc b.disc)
  | mul a b => normalize (mul a.disc b.disc)
  | div a b => normalize (div a.disc b.disc)
  | addI a n => normalize (addI a.disc n)
  | subI a n => normalize (subI a.disc n)
  | square a => normalize (square a.disc)
  | normalize a => normalize a.disc
  | neg a => normalize (sub zero a.disc)
  | invert a => normalize (invert a.disc)
  | legendre a => normalize (legendre a.disc)
  | sqrt a => normalize (sqrt a.disc)

/-- The computations covered: all without the four exponentiations in `Mod_e251_9`, and without
byte strings that set the bit above the modulus in `Mod_e383_187`
(see C12). -/
def Covered (f : Fld) : Ex → Prop
  | zero | one | mOne | modulus | rand _ => True
  | bytes bs => f = .e383_187 → leVal (bs.take f.nbytes) < 2 ^ f.n
  | add a b | sub a b | mul a b => a.Covered f ∧ b.Covered f
  | div a b => f ≠ .e251_9 ∧ a.Covered f ∧ b.Covered f
  | addI a _ | subI a _ | square a | normalize a | neg a => a.Covered f
  | invert a | legendre a | sqrt a => f ≠ .e251_9 ∧ a.Covered f

theorem disc_valid {f : Fld} {e : Ex} (h : e.Valid f) : e.disc.Valid f := by
  induction e with
  | zero => trivial
  | one => trivial
  | mOne => trivial
  | modulus => trivial
  | bytes bs => exact h
  | rand rng => exact h
  | add a b iha ihb => exact ⟨iha h.1, ihb h.2⟩
  | sub a b iha ihb => exact ⟨iha h.1, ihb h.2⟩
  | mul a b iha ihb => exact ⟨iha h.1, ihb h.2⟩
  | div a b iha ihb => exact ⟨iha h.1, ihb h.2⟩
  | addI a n iha => exact ⟨iha h.1, h.2⟩
  | subI a n iha => exact ⟨iha h.1, h.2⟩
  | square a iha => exact iha h
  | normalize a iha => exact iha h
  | neg a iha => exact ⟨trivial, iha h⟩
  | invert a iha => exact iha h
  | legendre a iha => exact iha h
  | sqrt a iha => exact iha h

theorem disc_den (f : Fld) (e : Ex) : e.disc.den f = e.den f := by
  induction e with
  | zero | one | mOne | modulus | bytes _ | rand _ => rfl
  | neg a iha => simp only [disc, den, iha, zero_sub]
  | add a b iha ihb => simp only [disc, den, iha, ihb]
  | sub a b iha ihb => simp only [disc, den, iha, ihb]
  | mul a b iha ihb => simp only [disc, den, iha, ihb]
  | div a b iha ihb => simp only [disc, den, iha, ihb]
  | addI a n iha => simp only [disc, den, iha]
  | subI a n iha => simp only [disc, den, iha]
  | square a iha => simp only [disc, den, iha]
  | normalize a iha => simp only [disc, den, iha]
  | invert a iha => simp only [disc, den, iha]
  | legendre a iha => simp only [disc, den, iha]
  | sqrt a iha => simp only [disc, den, iha]

theorem mulB_lo (f : Fld) : -f.p ≤ (mulB f).1 := by cases f <;> decide +kernel
theorem sqB_lo (f : Fld) : -f.p ≤ (sqB f).1 := by cases f <;> decide +kernel

theorem mulOk_canon {f : Fld} {x y : Int × Int} (hx : 0 ≤ x.1 ∧ x.1 ≤ x.2 ∧ x.2 ≤ f.p - 1)
    (hy : 0 ≤ y.1 ∧ y.1 ≤ y.2 ∧ y.2 ≤ f.p - 1) : mulOk f x y = true := by
  cases f with
  | e222_117 => exact decide_eq_true ⟨hx.1, hy.1⟩
  | e251_9 =>
    refine decide_eq_true ⟨hx.1, hy.1, ?_⟩
    have h0 := hx.1.trans hx.2.1
    have h1 := hy.1.trans hy.2.1
    have := mul_le_mul hx.2.2 hy.2.2 h1 (h0.trans hx.2.2)
    have h2 : (Fld.e251_9.p - 1) * (Fld.e251_9.p - 1) < 2 ^ 504 := by decide +kernel
    linarith
  | _ => rfl

theorem chainOk_canon {f : Fld} (hf : f ≠ .e251_9) {x : Int × Int} (hx : 0 ≤ x.1) :
    chainOk f x = true := by
  cases f with
  | e222_117 => exact decide_eq_true hx
  | e251_9 => exact absurd rfl hf
  | _ => rfl

theorem mulOk_sqB {f : Fld} (hf : f ≠ .e251_9) {x : Int × Int} (hx : 0 ≤ x.1) :
    mulOk f x (sqB f) = true := by
  cases f with
  | e222_117 => exact decide_eq_true ⟨hx, by decide +kernel⟩
  | e251_9 => exact absurd rfl hf
  | _ => rfl

/-- The interval analysis accepts every normalized computation. -/
theorem disc_bounds {f : Fld} {e : Ex} (h : e.Valid f) (hc : e.Covered f) :
    ∃ b, e.disc.bounds f = some b ∧ 0 ≤ b.1 ∧ b.1 ≤ b.2 ∧ b.2 ≤ f.p - 1 := by
  have hI : (2 : Int) ^ 31 ≤ f.p := by clear h hc; cases f <;> decide +kernel
  have hp : f.p < 2 ^ f.n := by clear h hc hI; cases f <;> decide +kernel
  have key : ∀ {e' : Ex} {b : Int × Int}, e'.bounds f = some b → -f.p ≤ b.1 →
      ∃ b, (normalize e').bounds f = some b ∧ 0 ≤ b.1 ∧ b.1 ≤ b.2 ∧ b.2 ≤ f.p - 1 := by
    intro e' b h1 h2
    exact ⟨(0, f.p - 1), by simp only [bounds, h1, Option.bind_some, h2, if_true],
      le_refl _, by dsimp only; linarith, le_refl _⟩
  have hfold : ∀ {b : Int × Int}, 0 ≤ b.1 → b.2 ≤ f.p - 1 → foldB f b = b := by
    intro b h1 h2
    exact if_pos ⟨h1, by linarith⟩
  induction e with
  | zero => exact ⟨_, rfl, le_refl _, le_refl _, by dsimp only; linarith⟩
  | one => exact ⟨_, rfl, zero_le_one, le_refl _, by dsimp only; linarith⟩
  | mOne => exact ⟨_, rfl, by dsimp only; linarith, le_refl _, le_refl _⟩
  | modulus => exact key rfl (by dsimp only; linarith)
  | bytes bs =>
    refine key (b := (_, _)) (if_neg fun hh => absurd (hc hh.1) (not_lt.mpr hh.2)) ?_
    exact le_trans (by linarith) (Int.emod_nonneg _ (by positivity))
  | rand _ => exact ⟨_, rfl, le_refl _, by dsimp only; linarith, le_refl _⟩
  | add a b iha ihb =>
    obtain ⟨x, hx, x0, x1, x2⟩ := iha h.1 hc.1
    obtain ⟨y, hy, y0, y1, y2⟩ := ihb h.2 hc.2
    refine key (b := ((foldB f x).1 + (foldB f y).1, (foldB f x).2 + (foldB f y).2))
      (by simp only [bounds, hx, hy, Option.bind_some]) ?_
    rw [hfold x0 x2, hfold y0 y2]
    dsimp only; linarith
  | sub a b iha ihb =>
    obtain ⟨x, hx, x0, x1, x2⟩ := iha h.1 hc.1
    obtain ⟨y, hy, y0, y1, y2⟩ := ihb h.2 hc.2
    refine key (b := ((foldB f x).1 - y.2, (foldB f x).2 - y.1))
      (by simp only [bounds, hx, hy, Option.bind_some]; exact if_pos ⟨y0, by linarith⟩) ?_
    rw [hfold x0 x2]
    dsimp only; linarith
  | mul a b iha ihb =>
    obtain ⟨x, hx, hx'⟩ := iha h.1 hc.1
    obtain ⟨y, hy, hy'⟩ := ihb h.2 hc.2
    exact key (b := mulB f)
      (by simp only [bounds, hx, hy, Option.bind_some, mulOk_canon hx' hy', if_true]) (mulB_lo f)
  | div a b iha ihb =>
    obtain ⟨x, hx, hx'⟩ := iha h.1 hc.2.1
    obtain ⟨y, hy, hy'⟩ := ihb h.2 hc.2.2
    exact key (b := mulB f)
      (by simp only [bounds, hx, hy, Option.bind_some, chainOk_canon hc.1 hy'.1,
        mulOk_sqB hc.1 hx'.1, Bool.and_self, if_true]) (mulB_lo f)
  | addI a n iha =>
    obtain ⟨x, hx, x0, x1, x2⟩ := iha h.1 hc
    refine key (b := ((foldB f x).1 + n, (foldB f x).2 + n))
      (by simp only [bounds, hx, Option.map_some]) ?_
    rw [hfold x0 x2]
    have := h.2.1
    dsimp only; linarith
  | subI a n iha =>
    obtain ⟨x, hx, x0, x1, x2⟩ := iha h.1 hc
    refine key (b := ((foldB f x).1 - n, (foldB f x).2 - n))
      (by simp only [bounds, hx, Option.map_some]) ?_
    rw [hfold x0 x2]
    have := h.2.2
    dsimp only; linarith
  | square a iha =>
    obtain ⟨x, hx, -⟩ := iha h hc
    exact key (b := sqB f) (by simp only [bounds, hx, Option.map_some]) (sqB_lo f)
  | normalize a iha =>
    obtain ⟨x, hx, x0, -⟩ := iha h hc
    exact key hx (by linarith)
  | neg a iha =>
    obtain ⟨y, hy, y0, y1, y2⟩ := iha h hc
    refine key (b := ((foldB f (0, 0)).1 - y.2, (foldB f (0, 0)).2 - y.1))
      (by simp only [bounds, hy, Option.bind_some]; exact if_pos ⟨y0, by linarith⟩) ?_
    rw [hfold (le_refl _) (by dsimp only; linarith)]
    dsimp only; linarith
  | invert a iha =>
    obtain ⟨x, hx, x0, -⟩ := iha h hc.2
    exact key (b := sqB f)
      (by simp only [bounds, hx, Option.bind_some, chainOk_canon hc.1 x0, if_true]) (sqB_lo f)
  | legendre a iha =>
    obtain ⟨x, hx, x0, -⟩ := iha h hc.2
    exact key (b := sqB f)
      (by simp only [bounds, hx, Option.bind_some, chainOk_canon hc.1 x0, if_true]) (sqB_lo f)
  | sqrt a iha =>
    obtain ⟨x, hx, x0, -⟩ := iha h hc.2
    exact key (b := sqB f)
      (by simp only [bounds, hx, Option.bind_some, chainOk_canon hc.1 x0, if_true]) (sqB_lo f)

end Ex

/-- C42, byte level: a computation that normalizes after every operation packs to the
little-endian encoding of the same computation in `ℤ / p`. -/
theorem C42_packed_partial (f : Fld) (pr : Profile) (e : Ex) (h : e.Valid f)
    (hc : e.Covered f) :
    ∃ r a' out, e.disc.exec f pr = .ok r ∧ f.code.packed pr r = .ok (a', out) ∧
      out.length = f.nbytes ∧ IsBytes out ∧ leVal out = ((e.den f).val : Int) := by
  obtain ⟨b, h1, h2, -⟩ := Ex.disc_bounds h hc
  rw [← Ex.disc_den f e]
  exact C25_refines_partial f pr _ (Ex.disc_valid h) h1 (by have := f.p_pos; linarith)

theorem Fld.Canon.eq_of_cast {f : Fld} {x : Int} {a : Elem} (h : f.Canon x a) {d : ZMod f.pN}
    (hd : (x : ZMod f.pN) = d) : f.Canon (d.val : Int) a := by
  have : (d.val : Int) = x := by
    rw [← hd, ZMod.val_intCast, ← p_eq, Int.emod_eq_of_lt h.2.2.1 h.2.2.2]
  rw [this]; exact h

/-- C42: a computation that normalizes after every operation returns the canonical
representation of the same computation in `ℤ / p`, in a debug and in a release build.
Missing from the full statement: in `Mod_e251_9` division, inversion, the Legendre symbol and
`sqrt`. -/
theorem C42_normalized_partial (f : Fld) (pr : Profile) (e : Ex) (h : e.Valid f)
    (hc : e.Covered f) :
    ∃ r, e.disc.exec f pr = .ok r ∧ f.Canon ((e.den f).val : Int) r := by
  have norm : ∀ e' : Ex, e'.Valid f → (∃ b, (Ex.normalize e').bounds f = some b) →
      ∃ r, (Ex.normalize e').exec f pr = .ok r ∧ f.Canon ((e'.den f).val : Int) r := by
    intro e' hv ⟨b, hb⟩
    simp only [Ex.bounds, Option.bind_eq_some_iff] at hb
    obtain ⟨x, hx, hb⟩ := hb
    split at hb
    swap
    · cases hb
    next hlo =>
    obtain ⟨u, h1, h2⟩ := C25_value f pr e' hv hx
    obtain ⟨r, h5, h6⟩ := C09_normalize_partial f pr (Tight.rep h2.1) (hlo.trans h2.2.1)
    refine ⟨r, ?_, h6.eq_of_cast ?_⟩
    · simp only [Ex.exec, h1, bind, Except.bind]; exact h5
    · rw [modEq_iff.mp (Int.mod_modEq _ _), h2.2.2.2]
  have hv := Ex.disc_valid h
  have hd := Ex.disc_den f e
  obtain ⟨b, hb, -⟩ := Ex.disc_bounds h hc
  rw [← hd]
  clear hd
  cases e with
  | zero => exact ⟨_, rfl, (zero_canon f).eq_of_cast (by simp [Ex.disc, Ex.den])⟩
  | one => exact ⟨_, rfl, (one_canon f).eq_of_cast (by simp [Ex.disc, Ex.den])⟩
  | mOne => exact ⟨_, rfl, (m_one_canon f).eq_of_cast (by
      push_cast; rw [dvd_iff.mp (dvd_refl f.p)]; simp [Ex.disc, Ex.den])⟩
  | rand rng => exact ⟨_, rfl, (C24_rand_canonical f h).eq_of_cast rfl⟩
  | modulus => exact norm _ hv ⟨b, hb⟩
  | bytes bs => exact norm _ hv ⟨b, hb⟩
  | add a b' => exact norm _ hv ⟨b, hb⟩
  | sub a b' => exact norm _ hv ⟨b, hb⟩
  | mul a b' => exact norm _ hv ⟨b, hb⟩
  | div a b' => exact norm _ hv ⟨b, hb⟩
  | addI a n => exact norm _ hv ⟨b, hb⟩
  | subI a n => exact norm _ hv ⟨b, hb⟩
  | square a => exact norm _ hv ⟨b, hb⟩
  | normalize a => exact norm _ hv ⟨b, hb⟩
  | neg a => exact norm _ hv ⟨b, hb⟩
  | invert a => exact norm _ hv ⟨b, hb⟩
  | legendre a => exact norm _ hv ⟨b, hb⟩
  | sqrt a => exact norm _ hv ⟨b, hb⟩

/-- Byte strings do not set the bit above the modulus in `Mod_e383_187`. -/
def Ex.BytesOk (f : Fld) : Ex → Prop
  | zero | one | mOne | modulus | rand _ => True
  | bytes bs => f = .e383_187 → leVal (bs.take f.nbytes) < 2 ^ f.n
  | add a b | sub a b | mul a b | div a b => a.BytesOk f ∧ b.BytesOk f
  | addI a _ | subI a _ | square a | normalize a | neg a => a.BytesOk f
  | invert a | legendre a | sqrt a => a.BytesOk f

/-- Full statement of C42 (false in `Mod_e251_9`). -/
def C42_statement : Prop := ∀ (f : Fld) (pr : Profile) (e : Ex), e.Valid f → e.BytesOk f →
  ∃ r, e.disc.exec f pr = .ok r ∧ f.Canon ((e.den f).val : Int) r

/-- In eight types the full statement holds. -/
theorem C42_eight_types_partial (f : Fld) (hf : f ≠ .e251_9) (pr : Profile) (e : Ex)
    (h : e.Valid f) (hb : e.BytesOk f) :
    ∃ r, e.disc.exec f pr = .ok r ∧ f.Canon ((e.den f).val : Int) r := by
  refine C42_normalized_partial f pr e h ?_
  clear h
  induction e with
  | zero | one | mOne | modulus | rand _ => trivial
  | bytes bs => exact hb
  | add a b iha ihb | sub a b iha ihb | mul a b iha ihb => exact ⟨iha hb.1, ihb hb.2⟩
  | div a b iha ihb => exact ⟨hf, iha hb.1, ihb hb.2⟩
  | addI a n iha | subI a n iha => exact iha hb
  | square a iha | normalize a iha | neg a iha => exact iha hb
  | invert a iha | legendre a iha | sqrt a iha => exact ⟨hf, iha hb⟩

/-- A wrong square root stays wrong. -/
theorem no_root {f : Fld} {pr : Profile} {e : Ex} {a u : Elem}
    (hs : ∃ y : Int, y * y ≡ f.V a [ZMOD f.p]) (hu : f.Tight u) (hl : 0 ≤ f.V u)
    (hn : ¬ f.V u * f.V u ≡ f.V a [ZMOD f.p])
    (hden : e.den f = ((f.V a : Int) : ZMod f.pN)) (h3 : e.disc.exec f pr = .ok a)
    (h6 : f.code.sqrt pr a = .ok u) :
    ¬ ∃ r, (Ex.sqrt e).disc.exec f pr = .ok r ∧ f.Canon (((Ex.sqrt e).den f).val : Int) r := by
  rintro ⟨r, h1, h2⟩
  obtain ⟨n, h9, h10⟩ := C09_normalize_partial f pr (Tight.rep hu)
    (by have := f.p_pos; linarith)
  have e1 : (Ex.sqrt e).disc.exec f pr = .ok n := by
    show (Ex.normalize (.sqrt e.disc)).exec f pr = _
    rw [Ex.exec, Ex.exec, h3]
    simp only [bind, Except.bind, h6]
    exact h9
  obtain rfl := ok_unique h1 e1
  have e2 : ((f.V u : Int) : ZMod f.pN) = f.root ((f.V a : Int) : ZMod f.pN) := by
    rw [← modEq_iff.mp (Int.mod_modEq (f.V u) f.p), ← h10.2.1, h2.2.1]
    push_cast
    rw [ZMod.natCast_zmod_val, Ex.den, hden]
  have e3 := (C45_root f (isSquare_iff.mp hs)).1
  rw [← e2, ← Int.cast_mul, ← modEq_iff] at e3
  exact hn e3

/-- The bytes of `hardSquare`. -/
def hardBytes : List Int := (List.range 32).map fun i => e251_9.V hardSquare / 256 ^ i % 256

theorem hardBytes_valid : (Ex.bytes hardBytes).Valid e251_9 :=
  ⟨fun x hx => by
    obtain ⟨i, -, rfl⟩ := List.mem_map.mp hx
    exact ⟨Int.emod_nonneg _ (by decide), Int.emod_lt_of_pos _ (by decide)⟩,
   by decide +kernel⟩

theorem hardBytes_den :
    (Ex.bytes hardBytes).den e251_9 = ((e251_9.V hardSquare : Int) : ZMod e251_9.pN) := by
  have : leVal (hardBytes.take e251_9.nbytes) % 2 ^ e251_9.n = e251_9.V hardSquare := by
    decide +kernel
  rw [Ex.den, this]

set_option maxRecDepth 100000 in
theorem hard_root : ∃ u, e251_9.code.sqrt .debug hardSquare = .ok u ∧ e251_9.Tight u ∧
    0 ≤ e251_9.V u ∧ ¬ e251_9.V u * e251_9.V u ≡ e251_9.V hardSquare [ZMOD e251_9.p] := by
  have hc := (C18_e251_counterexample .debug).1
  have hy' : (e251_9.intRun (fun _ => none) e251_9.code.sqrtC (e251_9.V hardSquare)).isSome = true := by
    decide +kernel
  obtain ⟨y, hy⟩ := Option.isSome_iff_exists.mp hy'
  have h5 : (match e251_9.intRun (fun _ => none) e251_9.code.sqrtC (e251_9.V hardSquare) with
      | some y => decide (y * y % e251_9.p = e251_9.V hardSquare % e251_9.p) || decide (y < 0)
      | none => true) = false := by decide +kernel
  rw [hy] at h5
  have h5 := Bool.or_eq_false_iff.mp h5
  obtain ⟨u, h6, h7, h8⟩ := intRun_sound' .debug (q := e251_9.code.quarticLegendre .debug)
    hc.tight hy
  subst h8
  exact ⟨u, h6, h7, not_lt.mp (of_decide_eq_false h5.2), of_decide_eq_false h5.1⟩

/-- In `Mod_e251_9` normalizing does not help `sqrt`: the root of the residue `hardSquare`, read
from its bytes, is wrong. -/
theorem C42_statement_false : ¬ C42_statement := by
  intro h
  obtain ⟨u, h1, h2, h3, h4⟩ := hard_root
  obtain ⟨hc, hs, -⟩ := C18_e251_counterexample .debug
  obtain ⟨a, h5, h6⟩ := h e251_9 .debug (.bytes hardBytes) hardBytes_valid (fun h => by cases h)
  have ha : a = hardSquare :=
    C09_canonical_unique e251_9 h6 (hc.eq_of_cast hardBytes_den.symm)
  rw [ha] at h5
  exact no_root ⟨_, hs⟩ h2 h3 h4 hardBytes_den h5 h1
    (h e251_9 .debug (.sqrt (.bytes hardBytes)) hardBytes_valid (fun h => by cases h))

/-- Without the discipline the same computation can be wrong: `(0 - 1) * 1` in
`Mod_e222_117` (see `C25_statement_false`); with it the result is `p - 1`. -/
example : (match ((Ex.mul (.subI .zero 1) .one).disc).exec .e222_117 .debug with
    | .ok r => decide (r = Fld.e222_117.code.M_ONE)
    | .error _ => false) = true := by decide +kernel

/-- A computation with subtraction, negation and division meets the hypotheses. -/
example : (Ex.div (.neg (.sub .one .mOne)) (.legendre (.square (.subI .mOne 7)))).Valid .e222_117 ∧
    (Ex.div (.neg (.sub .one .mOne)) (.legendre (.square (.subI .mOne 7)))).Covered .e222_117 := by
  simp [Ex.Valid, Ex.Covered, IsI32]

end Verif
