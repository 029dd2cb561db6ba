import Verif.Props.SqrtValue
import Verif.Props.Canon

/-!
# Properties C08 and C25: whole computations

A computation through the API of a field type is an expression tree `Ex`.  `exec` runs it
with the modelled code.  C08: no computation panics, and debug and release builds agree.
C25: the bytes it finally packs are those of the same computation in `ℤ / p`, provided an
interval analysis (`bounds`) of the sizes of the intermediate values succeeds; in seven of
the nine types it succeeds for every computation without `-`.
-/

namespace Verif
open Fld FieldCode

/-- Computations through the API. -/
inductive Ex where
  | zero | one | mOne | modulus
  | bytes (bs : List Int)
  | rand (rng : Nat → Int → Int)
  | add (a b : Ex) | sub (a b : Ex) | mul (a b : Ex) | div (a b : Ex)
  | addI (a : Ex) (n : Int) | subI (a : Ex) (n : Int)
  | square (a : Ex) | normalize (a : Ex) | neg (a : Ex)
  | invert (a : Ex) | legendre (a : Ex) | sqrt (a : Ex)

namespace Ex
variable (f : Fld)

/-- Run a computation with the code of the field type. -/
def exec (pr : Profile) : Ex → Res Elem
  | zero => .ok f.code.ZERO
  | one => .ok f.code.ONE
  | mOne => .ok f.code.M_ONE
  | modulus => .ok f.code.MODULUS
  | bytes bs => f.code.unpacked pr bs
  | rand rng => .ok (f.code.rand rng)
  | add a b => do f.code.add pr (← exec pr a) (← exec pr b)
  | sub a b => do f.code.sub pr (← exec pr a) (← exec pr b)
  | mul a b => do f.code.mul pr (← exec pr a) (← exec pr b)
  | div a b => do f.code.div pr (← exec pr a) (← exec pr b)
  | addI a n => do f.code.smallAdd pr (← exec pr a) n
  | subI a n => do f.code.smallSub pr (← exec pr a) n
  | square a => do f.code.squared pr (← exec pr a)
  | normalize a => do f.code.normalize pr (← exec pr a)
  | neg a => do f.code.neg pr (← exec pr a)
  | invert a => do f.code.inverted pr (← exec pr a)
  | legendre a => do f.code.legendre pr (← exec pr a)
  | sqrt a => do f.code.sqrt pr (← exec pr a)

/-- The arguments have the Rust types, and byte strings are long enough. -/
def Valid : Ex → Prop
  | zero | one | mOne | modulus => True
  | bytes bs => IsBytes bs ∧ f.nbytes ≤ bs.length
  | rand rng => IsRng rng
  | add a b | sub a b | mul a b | div a b => Valid a ∧ Valid b
  | addI a n | subI a n => Valid a ∧ IsI32 n
  | square a | normalize a | neg a | invert a | legendre a | sqrt a => Valid a

end Ex

/-! ## C08: no overflow -/

theorem normalize_mono (F : FieldCode) (pr : Profile) {a r : Elem}
    (h : F.normalize .debug a = .ok r) : F.normalize pr a = .ok r := by
  simp only [FieldCode.normalize, bind, Except.bind, smallAdd, smallMul, smallAddAssign,
    smallMulAssign, subAssign] at *
  cases h1 : F.runLimb .debug F.smallAddP a [asI32 F.cval] with
  | error e => rw [h1] at h; cases h
  | ok x =>
    simp only [h1] at h; simp only [runLimb_mono F pr h1]
    cases h2 : F.carryOut x with
    | error e => simp only [h2] at h; cases h
    | ok y =>
      simp only [h2] at h
      cases h3 : F.runLimb .debug F.smallMulP F.MODULUS [asI32 y] with
      | error e => simp only [h3] at h; cases h
      | ok z =>
        simp only [h3] at h
        simp only [runLimb_mono F pr h3]
        exact runLimb_mono F pr h

theorem sqrt_mono (F : FieldCode) (pr : Profile) {a r : Elem}
    (h : F.sqrt .debug a = .ok r) : F.sqrt pr a = .ok r :=
  runChain_mono F pr _ (fun _ _ h => quarticLegendre_mono F pr h) h

theorem unpacked_tight (f : Fld) (pr : Profile) {bs : List Int} (h1 : IsBytes bs)
    (h2 : f.nbytes ≤ bs.length) : ∃ r, f.code.unpacked pr bs = .ok r ∧ f.Tight r := by
  obtain ⟨r, h3, h4, -⟩ := unpack_exact pr (Rep.isWords (Tight.rep (zero_canon f).tight)) h1 h2
  refine ⟨r, h3, Shape.mono h4 ?_ ?_⟩
  · have : (0 : Int) ≤ 2 ^ f.tb := by positivity
    linarith
  · clear h3 h4; cases f <;> decide +kernel

theorem div_tight (f : Fld) (pr : Profile) {a b : Elem} (ha : f.Tight a) (hb : f.Tight b) :
    ∃ r, f.code.div pr a b = .ok r ∧ f.Tight r := by
  obtain ⟨i, h1, h2⟩ := invert_tight f pr hb
  obtain ⟨r, h3, h4, -⟩ := C04_mul_correct_iff f pr (Tight.loose ha) (Tight.loose h2)
  refine ⟨r, ?_, h4⟩
  simp only [FieldCode.div, divAssign, h1, bind, Except.bind]
  exact h3

/-- C08: every computation runs without an overflow panic in a debug build, and the release
build computes the same words. -/
theorem C08_never_panics (f : Fld) (e : Ex) (h : e.Valid f) :
    ∃ r, (∀ pr, e.exec f pr = .ok r) ∧ f.Tight r := by
  induction e with
  | zero => exact ⟨_, fun _ => rfl, (zero_canon f).tight⟩
  | one => exact ⟨_, fun _ => rfl, (one_canon f).tight⟩
  | mOne => exact ⟨_, fun _ => rfl, (m_one_canon f).tight⟩
  | modulus => exact ⟨_, fun _ => rfl, word_tight (modulus_shape f)⟩
  | bytes bs =>
    obtain ⟨r, h1, h2⟩ := unpacked_tight f .debug h.1 h.2
    exact ⟨r, fun pr => runLimb_mono _ pr h1, h2⟩
  | rand rng => exact ⟨_, fun _ => rfl, (C24_rand_canonical f h).tight⟩
  | add a b iha ihb =>
    obtain ⟨x, h1, h2⟩ := iha h.1
    obtain ⟨y, h3, h4⟩ := ihb h.2
    obtain ⟨r, h5, h6, -⟩ := C01_add f .debug (Tight.rep h2) (Tight.rep h4)
    refine ⟨r, fun pr => ?_, h6⟩
    simp only [Ex.exec, h1, h3, bind, Except.bind]
    exact runLimb_mono _ pr h5
  | sub a b iha ihb =>
    obtain ⟨x, h1, h2⟩ := iha h.1
    obtain ⟨y, h3, h4⟩ := ihb h.2
    obtain ⟨r, h5, h6, -⟩ := C02_sub_correct_iff f .debug (Tight.rep h2) (Tight.rep h4)
    refine ⟨r, fun pr => ?_, h6⟩
    simp only [Ex.exec, h1, h3, bind, Except.bind]
    exact runLimb_mono _ pr h5
  | mul a b iha ihb =>
    obtain ⟨x, h1, h2⟩ := iha h.1
    obtain ⟨y, h3, h4⟩ := ihb h.2
    obtain ⟨r, h5, h6, -⟩ := C04_mul_correct_iff f .debug (Tight.loose h2) (Tight.loose h4)
    refine ⟨r, fun pr => ?_, h6⟩
    simp only [Ex.exec, h1, h3, bind, Except.bind]
    exact runLimb_mono _ pr h5
  | div a b iha ihb =>
    obtain ⟨x, h1, h2⟩ := iha h.1
    obtain ⟨y, h3, h4⟩ := ihb h.2
    obtain ⟨i, h5, h6⟩ := invert_tight f .debug h4
    obtain ⟨r, h7, h8, -⟩ := C04_mul_correct_iff f .debug (Tight.loose h2) (Tight.loose h6)
    refine ⟨r, fun pr => ?_, h8⟩
    have h9 : f.code.inverted pr y = .ok i := runChain_mono _ pr _ (fun _ _ h => h) h5
    simp only [Ex.exec, h1, h3, bind, Except.bind, FieldCode.div, divAssign, h9]
    exact runLimb_mono _ pr h7
  | addI a n iha =>
    obtain ⟨x, h1, h2⟩ := iha h.1
    obtain ⟨r, h5, h6, -⟩ := C06_small_add f .debug (Tight.rep h2) h.2
    refine ⟨r, fun pr => ?_, h6⟩
    simp only [Ex.exec, h1, bind, Except.bind]
    exact runLimb_mono _ pr h5
  | subI a n iha =>
    obtain ⟨x, h1, h2⟩ := iha h.1
    obtain ⟨r, h5, h6, -⟩ := C06_small_sub f .debug (Tight.rep h2) h.2
    refine ⟨r, fun pr => ?_, h6⟩
    simp only [Ex.exec, h1, bind, Except.bind]
    exact runLimb_mono _ pr h5
  | square a iha =>
    obtain ⟨x, h1, h2⟩ := iha h
    obtain ⟨r, h5, h6, -⟩ := C05_square f .debug h2
    refine ⟨r, fun pr => ?_, h6⟩
    simp only [Ex.exec, h1, bind, Except.bind]
    exact runLimb_mono _ pr h5
  | normalize a iha =>
    obtain ⟨x, h1, h2⟩ := iha h
    obtain ⟨r, h5, h6, -⟩ := C09_normalize_correct_iff f .debug (Tight.rep h2)
    refine ⟨r, fun pr => ?_, h6⟩
    simp only [Ex.exec, h1, bind, Except.bind]
    exact normalize_mono _ pr h5
  | neg a iha =>
    obtain ⟨x, h1, h2⟩ := iha h
    obtain ⟨r, h5, h6, -⟩ := C03_neg_is_identity f .debug (Tight.rep h2)
    refine ⟨r, fun pr => ?_, h6⟩
    simp only [Ex.exec, h1, bind, Except.bind]
    exact runLimb_mono _ pr h5
  | invert a iha =>
    obtain ⟨x, h1, h2⟩ := iha h
    obtain ⟨r, h5, h6⟩ := invert_tight f .debug h2
    refine ⟨r, fun pr => ?_, h6⟩
    simp only [Ex.exec, h1, bind, Except.bind]
    exact runChain_mono _ pr _ (fun _ _ h => h) h5
  | legendre a iha =>
    obtain ⟨x, h1, h2⟩ := iha h
    obtain ⟨r, h5, h6⟩ := legendre_tight f .debug h2
    refine ⟨r, fun pr => ?_, h6⟩
    simp only [Ex.exec, h1, bind, Except.bind]
    exact runChain_mono _ pr _ (fun _ _ h => h) h5
  | sqrt a iha =>
    obtain ⟨x, h1, h2⟩ := iha h
    obtain ⟨r, h5, h6⟩ := sqrt_tight f .debug h2
    refine ⟨r, fun pr => ?_, h6⟩
    simp only [Ex.exec, h1, bind, Except.bind]
    exact sqrt_mono _ pr h5

/-- A computation with all kinds of steps. -/
example : (Ex.sqrt (.div (.sub (.bytes (List.replicate 66 255)) (.add .mOne .mOne))
    (.subI (.square .mOne) 2147483647))).Valid .e521_1 := by
  refine ⟨⟨⟨fun b hb => ?_, by decide⟩, trivial, trivial⟩, trivial, by unfold IsI32; decide⟩
  rw [List.eq_of_mem_replicate hb]; decide

/-! ## C25: refinement of `ℤ / p` -/

namespace Ex
variable (f : Fld)

open Classical in
/-- The same computation in `ℤ / p`.  (Of the two square roots, `sqrt` is
meant to return the one given by `Fld.root`, see C45.) -/
noncomputable def den : Ex → ZMod f.pN
  | zero => 0
  | one => 1
  | mOne => -1
  | modulus => 0
  | bytes bs => (leVal (bs.take f.nbytes) % 2 ^ f.n : Int)
  | rand rng => (f.V (f.code.rand rng) : Int)
  | add a b => den a + den b
  | sub a b => den a - den b
  | mul a b => den a * den b
  | div a b => den a * (den b)⁻¹
  | addI a n => den a + n
  | subI a n => den a - n
  | square a => den a * den a
  | normalize a => den a
  | neg a => - den a
  | invert a => (den a)⁻¹
  | legendre a => if den a = 0 then 0 else if IsSquare (den a) then 1 else -1
  | sqrt a => f.root (den a)

/-- Interval of the values obtained by folding the carries of values in `[lo, hi]`. -/
def foldB (b : Int × Int) : Int × Int :=
  if 0 ≤ b.1 ∧ b.2 < 2 ^ f.n then b
  else (if -f.p ≤ b.1 then 0 else f.c * (b.1 / 2 ^ f.n), 2 ^ f.n - 1 + f.c * (b.2 / 2 ^ f.n))

/-- Interval of the values of products, for a lower bound of the top word. -/
def prodB (lo : Int) : Int × Int :=
  (2 ^ (f.L * (f.k - 1)) * lo, 2 ^ (f.L * (f.k - 1)) * (2 ^ (f.tb + 1) + f.c + 1) - 1)

/-- Interval of products. -/
def mulB : Int × Int := prodB f (if f = .e222_117 ∨ f = .e251_9 then 0 else -1)

/-- Interval of squares, and of products without `Mod_e251_9`. -/
def sqB : Int × Int := prodB f (if f = .e222_117 then 0 else -1)

/-- Is `*` right for operands with these intervals? -/
def mulOk (x y : Int × Int) : Bool :=
  match f with
  | .e222_117 => decide (0 ≤ x.1 ∧ 0 ≤ y.1)
  | .e251_9 => decide (0 ≤ x.1 ∧ 0 ≤ y.1 ∧ x.2 * y.2 < 2 ^ 504)
  | _ => true

/-- Is an exponentiation chain known to be right for an argument with this interval? -/
def chainOk (x : Int × Int) : Bool :=
  match f with
  | .e222_117 => decide (0 ≤ x.1)
  | .e251_9 => false
  | _ => true

/-- Interval analysis: an interval that contains the integer denoted by the words of the
result, or `none` if some step may be wrong. -/
def bounds : Ex → Option (Int × Int)
  | zero => some (0, 0)
  | one => some (1, 1)
  | mOne => some (f.p - 1, f.p - 1)
  | modulus => some (f.p, f.p)
  | bytes bs =>
    let v := leVal (bs.take f.nbytes)
    if f = .e383_187 ∧ 2 ^ f.n ≤ v then none else some (v % 2 ^ f.n, v % 2 ^ f.n)
  | rand _ => some (0, f.p - 1)
  | add a b => (bounds a).bind fun x => (bounds b).bind fun y =>
    some ((foldB f x).1 + (foldB f y).1, (foldB f x).2 + (foldB f y).2)
  | sub a b => (bounds a).bind fun x => (bounds b).bind fun y =>
    if 0 ≤ y.1 ∧ y.2 < 2 ^ f.n then some ((foldB f x).1 - y.2, (foldB f x).2 - y.1) else none
  | mul a b => (bounds a).bind fun x => (bounds b).bind fun y =>
    if mulOk f x y then
      some (mulB f) else none
  | div a b => (bounds a).bind fun x => (bounds b).bind fun y =>
    if chainOk f y && mulOk f x (sqB f) then
      some (mulB f) else none
  | addI a n => (bounds a).map fun x => ((foldB f x).1 + n, (foldB f x).2 + n)
  | subI a n => (bounds a).map fun x => ((foldB f x).1 - n, (foldB f x).2 - n)
  | square a => (bounds a).map fun _ => sqB f
  | normalize a => (bounds a).bind fun x => if -f.p ≤ x.1 then some (0, f.p - 1) else none
  | neg _ => none
  | invert a => (bounds a).bind fun x =>
    if chainOk f x then some (sqB f) else none
  | legendre a => (bounds a).bind fun x =>
    if chainOk f x then some (sqB f) else none
  | sqrt a => (bounds a).bind fun x =>
    if chainOk f x then some (sqB f) else none

end Ex

namespace Fld

/-- An element, the interval its value is in, and what it denotes. -/
def In (f : Fld) (b : Int × Int) (d : ZMod f.pN) (a : Elem) : Prop :=
  f.Tight a ∧ b.1 ≤ f.V a ∧ f.V a ≤ b.2 ∧ ((f.V a : Int) : ZMod f.pN) = d

theorem fold_cast (f : Fld) (v : Int) : ((f.fold v : Int) : ZMod f.pN) = v :=
  modEq_iff.mp (fold_modEq f v)

theorem foldB_spec {f : Fld} {b : Int × Int} {v : Int} (h1 : b.1 ≤ v) (h2 : v ≤ b.2) :
    (Ex.foldB f b).1 ≤ f.fold v ∧ f.fold v ≤ (Ex.foldB f b).2 := by
  unfold Ex.foldB
  have hp : (0 : Int) < 2 ^ f.n := by positivity
  have hc : (0 : Int) ≤ f.c := by positivity
  split
  · next h =>
    rw [fold_of_lt (h.1.trans h1) (h2.trans_lt h.2)]
    exact ⟨h1, h2⟩
  · have q1 : b.1 / 2 ^ f.n ≤ v / 2 ^ f.n := Int.ediv_le_ediv hp h1
    have q2 : v / 2 ^ f.n ≤ b.2 / 2 ^ f.n := Int.ediv_le_ediv hp h2
    have m1 := mul_le_mul_of_nonneg_left q1 hc
    have m2 := mul_le_mul_of_nonneg_left q2 hc
    have r1 := Int.emod_nonneg v hp.ne'
    have r2 := Int.emod_lt_of_pos v hp
    constructor
    · show (if -f.p ≤ b.1 then 0 else f.c * (b.1 / 2 ^ f.n)) ≤ f.fold v
      split
      · next h => exact Foldable.of_gt (h.trans h1)
      · simp only [fold]; linarith
    · show f.fold v ≤ 2 ^ f.n - 1 + f.c * (b.2 / 2 ^ f.n)
      simp only [fold]; linarith

theorem prodB_spec {f : Fld} {lo : Int} {r : Elem} (h : f.Shape lo (2 ^ (f.tb + 1) + f.c) r) :
    (Ex.prodB f lo).1 ≤ f.V r ∧ f.V r ≤ (Ex.prodB f lo).2 :=
  ⟨Shape.lo_le h, Int.le_sub_one_of_lt (Shape.lt_hi h)⟩

theorem mulOk_spec {f : Fld} {x y : Int × Int} (h : Ex.mulOk f x y = true) {a b : Elem}
    {d e : ZMod f.pN} (ha : f.In x d a) (hb : f.In y e b) : f.MulDomain (f.V a * f.V b) := by
  obtain ⟨ha, a1, a2, -⟩ := ha
  obtain ⟨hb, b1, b2, -⟩ := hb
  cases f with
  | e222_117 =>
    have h := of_decide_eq_true h
    exact e222_domain ha hb (h.1.trans a1) (h.2.trans b1)
  | e251_9 =>
    have h := of_decide_eq_true h
    have hA := h.1.trans a1
    have hB := h.2.1.trans b1
    exact ⟨mul_nonneg hA hB,
      (mul_le_mul a2 b2 hB (hA.trans a2)).trans_lt h.2.2⟩
  | _ => trivial

theorem chainOk_spec {f : Fld} {x : Int × Int} (h : Ex.chainOk f x = true) {a : Elem}
    {d : ZMod f.pN} (ha : f.In x d a) (c : Chain) : f.ChainArg c a := by
  obtain ⟨ha, a1, a2, -⟩ := ha
  refine ⟨ha, fun hf => ?_, fun hf => ?_⟩
  · subst hf
    exact (of_decide_eq_true h : (0 : Int) ≤ x.1).trans a1
  · subst hf
    cases h

theorem mul_in (f : Fld) (pr : Profile) {x y : Int × Int} {a b : Elem} {d e : ZMod f.pN}
    (ha : f.In x d a) (hb : f.In y e b) (h : Ex.mulOk f x y = true) :
    ∃ r, f.code.mul pr a b = .ok r ∧
      f.In (Ex.mulB f) (d * e) r := by
  obtain ⟨r, h1, h2, h3⟩ := C04_mul_correct_iff f pr (Tight.loose ha.1) (Tight.loose hb.1)
  obtain ⟨r', h1', h2', -⟩ := mul_exact pr (Tight.loose ha.1) (Tight.loose hb.1)
  have : r' = r := by
    have e : (Except.ok r : Res Elem) = .ok r' := h1.symm.trans h1'
    cases e; rfl
  subst this
  have e0 : f.mulLo = (if f = .e222_117 ∨ f = .e251_9 then 0 else -1) := by
    clear h1 h1' h2 h2' h3 h ha hb; cases f <;> decide
  rw [e0] at h2'
  have h4 := h3.mpr (mulOk_spec h ha hb)
  refine ⟨r', h1, h2, (prodB_spec h2').1, (prodB_spec h2').2, ?_⟩
  rw [Denotes, modEq_iff] at h4
  rw [h4]; push_cast; rw [ha.2.2.2, hb.2.2.2]

theorem chain_in {f : Fld} {r : Elem} (h : f.Tight r) (hl : f.lowB ≤ f.V r) :
    (Ex.sqB f).1 ≤ f.V r ∧
      f.V r ≤ (Ex.sqB f).2 := by
  refine ⟨?_, (prodB_spec h).2⟩
  refine le_trans ?_ hl
  unfold lowB Ex.sqB Ex.prodB
  by_cases hf : f = .e222_117
  · simp [hf]
  · simp [hf]

theorem invert_in (f : Fld) (pr : Profile) {x : Int × Int} {a : Elem} {d : ZMod f.pN}
    (ha : f.In x d a) (h : Ex.chainOk f x = true) :
    ∃ r, f.code.inverted pr a = .ok r ∧
      f.In (Ex.sqB f) d⁻¹ r := by
  obtain ⟨r, h1, h2, h3, h4, h5⟩ := C15_invert_partial f pr (chainOk_spec h ha _)
  refine ⟨r, h1, h2, (chain_in h2 h3).1, (chain_in h2 h3).2, ?_⟩
  rw [dvd_iff, ha.2.2.2] at h4 h5
  by_cases h0 : d = 0
  · have := h5 h0
    rw [Denotes, modEq_iff] at this
    rw [this, h0]; simp
  · have := h4 h0
    rw [modEq_iff] at this
    push_cast at this
    rw [ha.2.2.2] at this
    exact eq_inv_of_mul_eq_one_right this

end Fld

/-- The value computed is the one of the computation in `ℤ / p`, and is in the interval the
analysis gives. -/
theorem C25_value (f : Fld) (pr : Profile) (e : Ex) (h : e.Valid f) {b : Int × Int}
    (hb : e.bounds f = some b) : ∃ r, e.exec f pr = .ok r ∧ f.In b (e.den f) r := by
  induction e generalizing b with
  | zero =>
    cases hb
    have := zero_canon f
    exact ⟨_, rfl, this.tight, this.2.1.ge, this.2.1.le, by rw [this.2.1]; simp [Ex.den]⟩
  | one =>
    cases hb
    have := one_canon f
    exact ⟨_, rfl, this.tight, this.2.1.ge, this.2.1.le, by rw [this.2.1]; simp [Ex.den]⟩
  | mOne =>
    cases hb
    have := m_one_canon f
    exact ⟨_, rfl, this.tight, this.2.1.ge, this.2.1.le, by
      rw [this.2.1]; push_cast; rw [dvd_iff.mp (dvd_refl f.p)]; simp [Ex.den]⟩
  | modulus =>
    cases hb
    exact ⟨_, rfl, word_tight (modulus_shape f), (modulus_V f).ge, (modulus_V f).le, by
      rw [modulus_V, dvd_iff.mp (dvd_refl f.p)]; rfl⟩
  | bytes bs =>
    simp only [Ex.bounds] at hb
    split at hb
    · cases hb
    · next hn =>
      cases hb
      have hw := Rep.isWords (Tight.rep (zero_canon f).tight)
      have : ∃ r, f.code.unpacked pr bs = .ok r ∧ f.Shape 0 (2 ^ f.tb - 1) r ∧
          f.V r = leVal (bs.take f.nbytes) % 2 ^ f.n := by
        by_cases hf : f = .e383_187
        · have hlt : leVal (bs.take f.nbytes) < 2 ^ f.n := by
            by_contra hh
            exact hn ⟨hf, not_lt.mp hh⟩
          obtain ⟨r, h1, h2, h3⟩ := C12_unpack_small f pr hw h.1 h.2 hlt
          exact ⟨r, h1, h2, by rw [h3, Int.emod_eq_of_lt (leVal_nonneg (h.1.take _)) hlt]⟩
        · exact C12_unpack_partial f pr hf hw h.1 h.2
      obtain ⟨r, h1, h2, h3⟩ := this
      exact ⟨r, h1, word_tight h2, h3.ge, h3.le, by rw [h3]; rfl⟩
  | rand rng =>
    cases hb
    have := C24_rand_canonical f h
    exact ⟨_, rfl, this.tight, this.2.2.1, Int.le_sub_one_of_lt this.2.2.2, rfl⟩
  | add a b iha ihb =>
    simp only [Ex.bounds, Option.bind_eq_some_iff, Option.some.injEq] at hb
    obtain ⟨x, hx, y, hy, rfl⟩ := hb
    obtain ⟨u, h1, h2⟩ := iha h.1 hx
    obtain ⟨v, h3, h4⟩ := ihb h.2 hy
    obtain ⟨r, h5, h6, -⟩ := C01_add f pr (Tight.rep h2.1) (Tight.rep h4.1)
    obtain ⟨r', h5', -, h7⟩ := add_exact pr (Tight.rep h2.1) (Tight.rep h4.1)
    have : r' = r := by
      have e : (Except.ok r : Res Elem) = .ok r' := h5.symm.trans h5'
      cases e; rfl
    subst this
    have e1 : f.V r' = f.fold (f.V u) + f.fold (f.V v) := by
      rw [h7, fold_eq, fold_eq]; ring
    have b1 := foldB_spec (f := f) h2.2.1 h2.2.2.1
    have b2 := foldB_spec (f := f) h4.2.1 h4.2.2.1
    refine ⟨r', ?_, h6, ?_, ?_, ?_⟩
    · simp only [Ex.exec, h1, h3, bind, Except.bind]; exact h5
    · rw [e1]; exact add_le_add b1.1 b2.1
    · rw [e1]; exact add_le_add b1.2 b2.2
    · rw [e1]; push_cast; rw [fold_cast, fold_cast, h2.2.2.2, h4.2.2.2]; rfl
  | sub a b iha ihb =>
    simp only [Ex.bounds, Option.bind_eq_some_iff] at hb
    obtain ⟨x, hx, y, hy, hb⟩ := hb
    split at hb
    swap
    · cases hb
    next hc =>
    cases hb
    obtain ⟨u, h1, h2⟩ := iha h.1 hx
    obtain ⟨v, h3, h4⟩ := ihb h.2 hy
    obtain ⟨r, h5, h6, -⟩ := C02_sub_correct_iff f pr (Tight.rep h2.1) (Tight.rep h4.1)
    obtain ⟨r', h5', -, h7⟩ := sub_exact pr (Tight.rep h2.1) (Tight.rep h4.1)
    have : r' = r := by
      have e : (Except.ok r : Res Elem) = .ok r' := h5.symm.trans h5'
      cases e; rfl
    subst this
    have e1 : f.V r' = f.fold (f.V u) - f.V v := by
      rw [h7, fold_eq, Int.ediv_eq_zero_of_lt (hc.1.trans h4.2.1) (h4.2.2.1.trans_lt hc.2)]; ring
    have b1 := foldB_spec (f := f) h2.2.1 h2.2.2.1
    refine ⟨r', ?_, h6, ?_, ?_, ?_⟩
    · simp only [Ex.exec, h1, h3, bind, Except.bind]; exact h5
    · rw [e1]; exact sub_le_sub b1.1 h4.2.2.1
    · rw [e1]; exact sub_le_sub b1.2 h4.2.1
    · rw [e1]; push_cast; rw [fold_cast, h2.2.2.2, h4.2.2.2]; rfl
  | mul a b iha ihb =>
    simp only [Ex.bounds, Option.bind_eq_some_iff] at hb
    obtain ⟨x, hx, y, hy, hb⟩ := hb
    split at hb
    swap
    · cases hb
    next hc =>
    cases hb
    obtain ⟨u, h1, h2⟩ := iha h.1 hx
    obtain ⟨v, h3, h4⟩ := ihb h.2 hy
    obtain ⟨r, h5, h6⟩ := mul_in f pr h2 h4 hc
    refine ⟨r, ?_, h6⟩
    simp only [Ex.exec, h1, h3, bind, Except.bind]; exact h5
  | div a b iha ihb =>
    simp only [Ex.bounds, Option.bind_eq_some_iff] at hb
    obtain ⟨x, hx, y, hy, hb⟩ := hb
    split at hb
    swap
    · cases hb
    next hc =>
    cases hb
    rw [Bool.and_eq_true] at hc
    obtain ⟨u, h1, h2⟩ := iha h.1 hx
    obtain ⟨v, h3, h4⟩ := ihb h.2 hy
    obtain ⟨i, h5, h6⟩ := invert_in f pr h4 hc.1
    obtain ⟨r, h7, h8⟩ := mul_in f pr h2 h6 hc.2
    refine ⟨r, ?_, h8⟩
    simp only [Ex.exec, h1, h3, bind, Except.bind, FieldCode.div, divAssign, h5]; exact h7
  | addI a n iha =>
    simp only [Ex.bounds, Option.map_eq_some_iff] at hb
    obtain ⟨x, hx, rfl⟩ := hb
    obtain ⟨u, h1, h2⟩ := iha h.1 hx
    obtain ⟨r, h5, h6, -⟩ := C06_small_add f pr (Tight.rep h2.1) h.2
    obtain ⟨r', h5', -, h7⟩ := smallAdd_exact pr (Tight.rep h2.1) h.2
    have : r' = r := by
      have e : (Except.ok r : Res Elem) = .ok r' := h5.symm.trans h5'
      cases e; rfl
    subst this
    have e1 : f.V r' = f.fold (f.V u) + n := by rw [h7, fold_eq]; ring
    have b1 := foldB_spec (f := f) h2.2.1 h2.2.2.1
    refine ⟨r', ?_, h6, ?_, ?_, ?_⟩
    · simp only [Ex.exec, h1, bind, Except.bind]; exact h5
    · rw [e1]; exact add_le_add b1.1 le_rfl
    · rw [e1]; exact add_le_add b1.2 le_rfl
    · rw [e1]; push_cast; rw [fold_cast, h2.2.2.2]; rfl
  | subI a n iha =>
    simp only [Ex.bounds, Option.map_eq_some_iff] at hb
    obtain ⟨x, hx, rfl⟩ := hb
    obtain ⟨u, h1, h2⟩ := iha h.1 hx
    obtain ⟨r, h5, h6, -⟩ := C06_small_sub f pr (Tight.rep h2.1) h.2
    obtain ⟨r', h5', -, h7⟩ := smallSub_exact pr (Tight.rep h2.1) h.2
    have : r' = r := by
      have e : (Except.ok r : Res Elem) = .ok r' := h5.symm.trans h5'
      cases e; rfl
    subst this
    have e1 : f.V r' = f.fold (f.V u) - n := by rw [h7, fold_eq]; ring
    have b1 := foldB_spec (f := f) h2.2.1 h2.2.2.1
    refine ⟨r', ?_, h6, ?_, ?_, ?_⟩
    · simp only [Ex.exec, h1, bind, Except.bind]; exact h5
    · rw [e1]; exact sub_le_sub b1.1 le_rfl
    · rw [e1]; exact sub_le_sub b1.2 le_rfl
    · rw [e1]; push_cast; rw [fold_cast, h2.2.2.2]; rfl
  | square a iha =>
    simp only [Ex.bounds, Option.map_eq_some_iff] at hb
    obtain ⟨x, hx, rfl⟩ := hb
    obtain ⟨u, h1, h2⟩ := iha h hx
    obtain ⟨r, h5, h6, h7, h8⟩ := sym_square pr h2.1
    refine ⟨r, ?_, h6, (chain_in h6 h7).1, (chain_in h6 h7).2, ?_⟩
    · simp only [Ex.exec, h1, bind, Except.bind]; exact h5
    · rw [modEq_iff] at h8
      rw [h8]; push_cast; rw [h2.2.2.2]; rfl
  | normalize a iha =>
    simp only [Ex.bounds, Option.bind_eq_some_iff] at hb
    obtain ⟨x, hx, hb⟩ := hb
    split at hb
    swap
    · cases hb
    next hc =>
    cases hb
    obtain ⟨u, h1, h2⟩ := iha h hx
    obtain ⟨r, h5, h6⟩ := C09_normalize_partial f pr (Tight.rep h2.1) (hc.trans h2.2.1)
    refine ⟨r, ?_, h6.tight, by rw [h6.2.1]; exact h6.2.2.1,
      by rw [h6.2.1]; exact Int.le_sub_one_of_lt h6.2.2.2, ?_⟩
    · simp only [Ex.exec, h1, bind, Except.bind]; exact h5
    · rw [h6.2.1, modEq_iff.mp (Int.mod_modEq _ _), h2.2.2.2]; rfl
  | neg a iha => cases hb
  | invert a iha =>
    simp only [Ex.bounds, Option.bind_eq_some_iff] at hb
    obtain ⟨x, hx, hb⟩ := hb
    split at hb
    swap
    · cases hb
    next hc =>
    cases hb
    obtain ⟨u, h1, h2⟩ := iha h hx
    obtain ⟨r, h5, h6⟩ := invert_in f pr h2 hc
    refine ⟨r, ?_, h6⟩
    simp only [Ex.exec, h1, bind, Except.bind]; exact h5
  | legendre a iha =>
    simp only [Ex.bounds, Option.bind_eq_some_iff] at hb
    obtain ⟨x, hx, hb⟩ := hb
    split at hb
    swap
    · cases hb
    next hc =>
    cases hb
    obtain ⟨u, h1, h2⟩ := iha h hx
    obtain ⟨r, h5, h6, h7, h8, h9, h10⟩ := C17_legendre_partial f pr (chainOk_spec hc h2 _)
    refine ⟨r, ?_, h6, (chain_in h6 h7).1, (chain_in h6 h7).2, ?_⟩
    · simp only [Ex.exec, h1, bind, Except.bind]; exact h5
    · simp only [isSquare_iff] at h9 h10
      simp only [Denotes, modEq_iff, dvd_iff, h2.2.2.2] at h8 h9 h10
      simp only [Ex.den]
      split
      · next h0 => rw [h8 h0]; simp
      · next h0 =>
        split
        · next hs => rw [h9 h0 hs]; simp
        · next hs => rw [h10 hs]; simp
  | sqrt a iha =>
    simp only [Ex.bounds, Option.bind_eq_some_iff] at hb
    obtain ⟨x, hx, hb⟩ := hb
    split at hb
    swap
    · cases hb
    next hc =>
    cases hb
    obtain ⟨u, h1, h2⟩ := iha h hx
    obtain ⟨r, h5, h6, h7, h8⟩ := C45_value_partial f pr (chainOk_spec hc h2 _)
    refine ⟨r, ?_, h6, (chain_in h6 h7).1, (chain_in h6 h7).2, ?_⟩
    · simp only [Ex.exec, h1, bind, Except.bind]; exact h5
    · rw [h8, h2.2.2.2]; rfl

/-- Part of C25: if the interval analysis accepts the computation, then packing its result
gives the little-endian encoding of the same computation in `ℤ / p`.  Missing: computations
the analysis rejects (some of them are computed wrongly, see `C25_statement_false`). -/
theorem C25_refines_partial (f : Fld) (pr : Profile) (e : Ex) (h : e.Valid f) {b : Int × Int}
    (hb : e.bounds f = some b) (hlo : -f.p ≤ b.1) :
    ∃ r a' out, e.exec f pr = .ok r ∧ f.code.packed pr r = .ok (a', out) ∧
      out.length = f.nbytes ∧ IsBytes out ∧ leVal out = ((e.den f).val : Int) := by
  obtain ⟨r, h1, h2⟩ := C25_value f pr e h hb
  obtain ⟨a', out, h3, -, h4, h5, h6⟩ := C11_packed_partial f pr (Tight.rep h2.1)
    (Foldable.of_gt (hlo.trans h2.2.1))
  refine ⟨r, a', out, h1, h3, h4, h5, ?_⟩
  rw [h6, ← h2.2.2.2, ZMod.val_intCast, p_eq]

/-- Computations without `-` and `neg`. -/
def Ex.NoSub (f : Fld) : Ex → Prop
  | .zero | .one | .mOne | .modulus | .rand _ => True
  | .bytes bs => f = .e383_187 → leVal (bs.take f.nbytes) < 2 ^ f.n
  | .add a b | .mul a b | .div a b => a.NoSub f ∧ b.NoSub f
  | .addI a _ | .subI a _ | .square a | .normalize a | .invert a | .legendre a | .sqrt a => a.NoSub f
  | .sub _ _ | .neg _ => False

theorem prodB_lo (f : Fld) (hf : f ≠ .e222_117 ∧ f ≠ .e251_9) : -f.p ≤ (Ex.prodB f (-1)).1 := by
  obtain ⟨h1, h2⟩ := hf
  cases f <;> first | contradiction | decide +kernel

theorem foldB_lo {f : Fld} {b : Int × Int} (h : -f.p ≤ b.1) : 0 ≤ (Ex.foldB f b).1 := by
  unfold Ex.foldB
  split
  · next h' => exact h'.1
  · simp only [le_refl]

theorem bounds_noSub (f : Fld) (hf : f ≠ .e222_117 ∧ f ≠ .e251_9) (e : Ex) (h : e.Valid f)
    (hn : e.NoSub f) : ∃ b, e.bounds f = some b ∧ -f.p ≤ b.1 := by
  have hp := f.p_pos
  have hI : (2 : Int) ^ 31 ≤ f.p := by clear h hn; cases f <;> decide +kernel
  have hm : ∀ x y, Ex.mulOk f x y = true := by
    obtain ⟨h1, h2⟩ := hf
    clear h hn hp hI
    intro x y
    cases f <;> first | contradiction | rfl
  have hc : ∀ x, Ex.chainOk f x = true := by
    obtain ⟨h1, h2⟩ := hf
    clear h hn hp hI hm
    intro x
    cases f <;> first | contradiction | rfl
  have hl := prodB_lo f hf
  have e1 : Ex.mulB f = Ex.prodB f (-1) := by rw [Ex.mulB, if_neg (not_or.mpr hf)]
  have e2 : Ex.sqB f = Ex.prodB f (-1) := by rw [Ex.sqB, if_neg hf.1]
  induction e with
  | zero => exact ⟨_, rfl, by linarith⟩
  | one => exact ⟨_, rfl, by linarith⟩
  | mOne => exact ⟨_, rfl, by linarith⟩
  | modulus => exact ⟨_, rfl, by linarith⟩
  | bytes bs =>
    refine ⟨(_, _), if_neg fun hh => absurd (hn hh.1) (not_lt.mpr hh.2), ?_⟩
    exact le_trans (by linarith) (Int.emod_nonneg _ (by positivity))
  | rand _ => exact ⟨_, rfl, by linarith⟩
  | add a b iha ihb =>
    obtain ⟨x, hx, hx'⟩ := iha h.1 hn.1
    obtain ⟨y, hy, hy'⟩ := ihb h.2 hn.2
    refine ⟨((Ex.foldB f x).1 + (Ex.foldB f y).1, (Ex.foldB f x).2 + (Ex.foldB f y).2),
      by simp only [Ex.bounds, hx, hy, Option.bind_some], ?_⟩
    have := foldB_lo hx'
    have := foldB_lo hy'
    dsimp only
    linarith
  | sub a b iha ihb => exact hn.elim
  | mul a b iha ihb =>
    obtain ⟨x, hx, hx'⟩ := iha h.1 hn.1
    obtain ⟨y, hy, hy'⟩ := ihb h.2 hn.2
    exact ⟨Ex.mulB f, by simp only [Ex.bounds, hx, hy, Option.bind_some, hm, if_true], by rw [e1]; exact hl⟩
  | div a b iha ihb =>
    obtain ⟨x, hx, hx'⟩ := iha h.1 hn.1
    obtain ⟨y, hy, hy'⟩ := ihb h.2 hn.2
    exact ⟨Ex.mulB f, by simp only [Ex.bounds, hx, hy, Option.bind_some, hm, hc, Bool.and_self, if_true],
      by rw [e1]; exact hl⟩
  | addI a n iha =>
    obtain ⟨x, hx, hx'⟩ := iha h.1 hn
    refine ⟨((Ex.foldB f x).1 + n, (Ex.foldB f x).2 + n),
      by simp only [Ex.bounds, hx, Option.map_some], ?_⟩
    have := foldB_lo hx'
    have := h.2.1
    dsimp only
    linarith
  | subI a n iha =>
    obtain ⟨x, hx, hx'⟩ := iha h.1 hn
    refine ⟨((Ex.foldB f x).1 - n, (Ex.foldB f x).2 - n),
      by simp only [Ex.bounds, hx, Option.map_some], ?_⟩
    have := foldB_lo hx'
    have := h.2.2
    dsimp only
    linarith
  | square a iha =>
    obtain ⟨x, hx, hx'⟩ := iha h hn
    exact ⟨Ex.sqB f, by simp only [Ex.bounds, hx, Option.map_some], by rw [e2]; exact hl⟩
  | normalize a iha =>
    obtain ⟨x, hx, hx'⟩ := iha h hn
    exact ⟨(0, f.p - 1), by simp only [Ex.bounds, hx, Option.bind_some, hx', if_true], by dsimp only; linarith⟩
  | neg a iha => exact hn.elim
  | invert a iha =>
    obtain ⟨x, hx, hx'⟩ := iha h hn
    exact ⟨Ex.sqB f, by simp only [Ex.bounds, hx, Option.bind_some, hc, if_true], by rw [e2]; exact hl⟩
  | legendre a iha =>
    obtain ⟨x, hx, hx'⟩ := iha h hn
    exact ⟨Ex.sqB f, by simp only [Ex.bounds, hx, Option.bind_some, hc, if_true], by rw [e2]; exact hl⟩
  | sqrt a iha =>
    obtain ⟨x, hx, hx'⟩ := iha h hn
    exact ⟨Ex.sqB f, by simp only [Ex.bounds, hx, Option.bind_some, hc, if_true], by rw [e2]; exact hl⟩

/-- In seven of the nine types every computation without `-` refines `ℤ / p`. -/
theorem C25_seven_types_partial (f : Fld) (hf : f ≠ .e222_117 ∧ f ≠ .e251_9) (pr : Profile)
    (e : Ex) (h : e.Valid f) (hn : e.NoSub f) :
    ∃ r a' out, e.exec f pr = .ok r ∧ f.code.packed pr r = .ok (a', out) ∧
      out.length = f.nbytes ∧ IsBytes out ∧ leVal out = ((e.den f).val : Int) := by
  obtain ⟨b, h1, h2⟩ := bounds_noSub f hf e h hn
  exact C25_refines_partial f pr e h h1 h2

/-- Constants, random elements and results of `normalize`. -/
def Ex.Normal : Ex → Prop
  | .zero | .one | .mOne | .modulus | .rand _ | .normalize _ => True
  | _ => False

/-- Unpacked elements. -/
def Ex.Unpacked : Ex → Prop
  | .bytes _ => True
  | _ => False

/-- Results of `*`. -/
def Ex.Product : Ex → Prop
  | .mul _ _ => True
  | _ => False

/-- Results of `-`, of subtracting a positive and of adding a negative integer. -/
def Ex.Low : Ex → Prop
  | .sub _ _ => True
  | .addI _ n => n < 0
  | .subI _ n => 0 < n
  | _ => False

/-- Careful computations.  Subtrahends of `-` are constants, random elements or results of `normalize`; in
`Mod_e222_117` no operand of `*`, `/` or an exponentiation is the immediate result of a subtraction; in
`Mod_e251_9` there is no `/` or exponentiation, and of the operands of `*` one is a constant, random, unpacked
or normalized and the other is too or is a product. -/
def Ex.Careful (f : Fld) : Ex → Prop
  | .zero | .one | .mOne | .modulus | .rand _ => True
  | .bytes bs => f = .e383_187 → leVal (bs.take f.nbytes) < 2 ^ f.n
  | .add a b => a.Careful f ∧ b.Careful f
  | .sub a b => (a.Careful f ∧ b.Careful f) ∧ b.Normal
  | .mul a b => (a.Careful f ∧ b.Careful f) ∧ (f = .e222_117 → ¬ a.Low ∧ ¬ b.Low) ∧
      (f = .e251_9 → (a.Normal ∨ a.Unpacked) ∧ (b.Normal ∨ b.Unpacked ∨ b.Product) ∨
        (b.Normal ∨ b.Unpacked) ∧ a.Product)
  | .div a b => (a.Careful f ∧ b.Careful f) ∧ (f = .e222_117 → ¬ a.Low ∧ ¬ b.Low) ∧ f ≠ .e251_9
  | .addI a _ | .subI a _ | .square a | .normalize a => a.Careful f
  | .invert a | .legendre a | .sqrt a => a.Careful f ∧ (f = .e222_117 → ¬ a.Low) ∧ f ≠ .e251_9
  | .neg _ => False

theorem mulOk_of {f : Fld} {x y : Int × Int} (h1 : f = .e222_117 → 0 ≤ x.1 ∧ 0 ≤ y.1)
    (h2 : f = .e251_9 → 0 ≤ x.1 ∧ 0 ≤ y.1 ∧ x.2 * y.2 < 2 ^ 504) : Ex.mulOk f x y = true := by
  cases f <;> first | rfl | exact decide_eq_true (h1 rfl) | exact decide_eq_true (h2 rfl)

theorem chainOk_of {f : Fld} {x : Int × Int} (h1 : f = .e222_117 → 0 ≤ x.1) (h2 : f ≠ .e251_9) :
    Ex.chainOk f x = true := by
  cases f <;> first | rfl | exact decide_eq_true (h1 rfl) | exact absurd rfl h2

theorem mulB_lo (f : Fld) : -f.p ≤ (Ex.mulB f).1 ∧ (f = .e222_117 → 0 ≤ (Ex.mulB f).1) ∧
    (f = .e251_9 → 0 ≤ (Ex.mulB f).1 ∧ 0 ≤ (Ex.mulB f).2 ∧ (Ex.mulB f).2 ≤ 2 ^ 252 + 2 ^ 228) := by
  cases f <;> decide +kernel

theorem sqB_lo (f : Fld) : -f.p ≤ (Ex.sqB f).1 ∧ (f = .e222_117 → 0 ≤ (Ex.sqB f).1) := by
  cases f <;> decide +kernel

theorem p_lt_two_pow (f : Fld) : f.p < 2 ^ f.n := by cases f <;> decide +kernel

/-- What the analysis finds for careful computations. -/
def Ex.CarefulIn (f : Fld) (e : Ex) (b : Int × Int) : Prop :=
  -f.p ≤ b.1 ∧ (e.Normal → 0 ≤ b.1 ∧ 0 ≤ b.2 ∧ b.2 ≤ f.p) ∧
    (e.Unpacked → 0 ≤ b.1 ∧ 0 ≤ b.2 ∧ b.2 < 2 ^ f.n) ∧ (f = .e222_117 → ¬ e.Low → 0 ≤ b.1) ∧
    (f = .e251_9 → e.Product → 0 ≤ b.1 ∧ 0 ≤ b.2 ∧ b.2 ≤ 2 ^ 252 + 2 ^ 228)

theorem mul_small {x y : Int} (h1 : x < 2 ^ 251) (h2 : 0 ≤ y) (h3 : y ≤ 2 ^ 252 + 2 ^ 228) :
    x * y < 2 ^ 504 := by
  have h4 : x * y ≤ 2 ^ 251 * y := mul_le_mul_of_nonneg_right h1.le h2
  have h5 : (2 : Int) ^ 251 * y ≤ 2 ^ 251 * (2 ^ 252 + 2 ^ 228) := mul_le_mul_of_nonneg_left h3 (by positivity)
  have h6 : (2 : Int) ^ 251 * (2 ^ 252 + 2 ^ 228) < 2 ^ 504 := by decide +kernel
  exact lt_of_le_of_lt (h4.trans h5) h6

theorem bounds_careful (f : Fld) (e : Ex) (h : e.Valid f) (hn : e.Careful f) :
    ∃ b, e.bounds f = some b ∧ e.CarefulIn f b := by
  have hp := f.p_pos
  have hI : (2 : Int) ^ 31 ≤ f.p := by clear h hn; cases f <;> decide +kernel
  have nrm : ∀ {e : Ex} {b : Int × Int}, 0 ≤ b.1 → 0 ≤ b.2 → b.2 ≤ f.p → ¬ e.Unpacked → ¬ e.Product →
      e.CarefulIn f b := fun h1 h2 h3 h4 h5 =>
    ⟨by linarith, fun _ => ⟨h1, h2, h3⟩, fun h => absurd h h4, fun _ _ => h1, fun _ h => absurd h h5⟩
  have oth : ∀ {e : Ex} {b : Int × Int}, -f.p ≤ b.1 → (f = .e222_117 → ¬ e.Low → 0 ≤ b.1) → ¬ e.Normal →
      ¬ e.Unpacked → ¬ e.Product → e.CarefulIn f b := fun h1 h2 h3 h4 h5 =>
    ⟨h1, fun h => absurd h h3, fun h => absurd h h4, h2, fun _ h => absurd h h5⟩
  have mul : ∀ {e : Ex}, ¬ e.Normal → ¬ e.Unpacked → e.CarefulIn f (Ex.mulB f) := fun h1 h2 =>
    ⟨(mulB_lo f).1, fun h => absurd h h1, fun h => absurd h h2, fun h _ => (mulB_lo f).2.1 h,
      fun h _ => (mulB_lo f).2.2 h⟩
  have sq : ∀ {e : Ex}, ¬ e.Normal → ¬ e.Unpacked → ¬ e.Product → e.CarefulIn f (Ex.sqB f) :=
    oth (sqB_lo f).1 fun h _ => (sqB_lo f).2 h
  induction e with
  | zero => exact ⟨_, rfl, nrm (le_refl _) (le_refl _) hp.le nofun nofun⟩
  | one => exact ⟨_, rfl, nrm (by decide) (by decide) (by dsimp only; linarith) nofun nofun⟩
  | mOne => exact ⟨_, rfl, nrm (by dsimp only; linarith) (by dsimp only; linarith) (by dsimp only; linarith) nofun nofun⟩
  | modulus => exact ⟨_, rfl, nrm hp.le hp.le (le_refl _) nofun nofun⟩
  | bytes bs =>
    have h1 := Int.emod_nonneg (leVal (bs.take f.nbytes)) (b := 2 ^ f.n) (by positivity)
    exact ⟨(_, _), if_neg fun hh => absurd (hn hh.1) (not_lt.mpr hh.2), by dsimp only; linarith, nofun,
      fun _ => ⟨h1, h1, Int.emod_lt_of_pos _ (by positivity)⟩, fun _ _ => h1, nofun⟩
  | rand _ => exact ⟨_, rfl, nrm (le_refl _) (by dsimp only; linarith) (by dsimp only; linarith) nofun nofun⟩
  | add a b iha ihb =>
    obtain ⟨x, hx, hx'⟩ := iha h.1 hn.1
    obtain ⟨y, hy, hy'⟩ := ihb h.2 hn.2
    have := add_nonneg (foldB_lo hx'.1) (foldB_lo hy'.1)
    exact ⟨((Ex.foldB f x).1 + (Ex.foldB f y).1, (Ex.foldB f x).2 + (Ex.foldB f y).2),
      by simp only [Ex.bounds, hx, hy, Option.bind_some],
      oth (by dsimp only; linarith) (fun _ _ => this) nofun nofun nofun⟩
  | sub a b iha ihb =>
    obtain ⟨x, hx, hx'⟩ := iha h.1 hn.1.1
    obtain ⟨y, hy, hy'⟩ := ihb h.2 hn.1.2
    have h1 := foldB_lo hx'.1
    obtain ⟨h2, h3, h4⟩ := hy'.2.1 hn.2
    have h5 := p_lt_two_pow f
    exact ⟨((Ex.foldB f x).1 - y.2, (Ex.foldB f x).2 - y.1),
      by simp only [Ex.bounds, hx, hy, Option.bind_some]; exact if_pos ⟨h2, by linarith⟩,
      oth (by dsimp only; linarith) (fun _ hl => absurd trivial hl) nofun nofun nofun⟩
  | mul a b iha ihb =>
    obtain ⟨x, hx, hx'⟩ := iha h.1 hn.1.1
    obtain ⟨y, hy, hy'⟩ := ihb h.2 hn.1.2
    have hm : Ex.mulOk f x y = true := by
      refine mulOk_of (fun hf => ⟨hx'.2.2.2.1 hf (hn.2.1 hf).1, hy'.2.2.2.1 hf (hn.2.1 hf).2⟩) fun hf => ?_
      have small : ∀ {e : Ex} {b : Int × Int}, e.CarefulIn f b → e.Normal ∨ e.Unpacked →
          0 ≤ b.1 ∧ 0 ≤ b.2 ∧ b.2 < 2 ^ 251 := by
        intro e b hb he
        have h1 := p_lt_two_pow f
        have h2 : (2 : Int) ^ f.n = 2 ^ 251 := by rw [hf]; rfl
        rw [h2] at h1
        rcases he with he | he
        · exact ⟨(hb.2.1 he).1, (hb.2.1 he).2.1, lt_of_le_of_lt (hb.2.1 he).2.2 h1⟩
        · exact ⟨(hb.2.2.1 he).1, (hb.2.2.1 he).2.1, h2 ▸ (hb.2.2.1 he).2.2⟩
      have wide : ∀ {e : Ex} {b : Int × Int}, e.CarefulIn f b → e.Normal ∨ e.Unpacked ∨ e.Product →
          0 ≤ b.1 ∧ 0 ≤ b.2 ∧ b.2 ≤ 2 ^ 252 + 2 ^ 228 := by
        intro e b hb he
        rcases he with he | he | he
        · exact ⟨(small hb (.inl he)).1, (small hb (.inl he)).2.1, (small hb (.inl he)).2.2.le.trans (by decide +kernel)⟩
        · exact ⟨(small hb (.inr he)).1, (small hb (.inr he)).2.1, (small hb (.inr he)).2.2.le.trans (by decide +kernel)⟩
        · exact hb.2.2.2.2 hf he
      rcases hn.2.2 hf with ⟨h1, h2⟩ | ⟨h1, h2⟩
      · have h3 := small hx' h1
        have h4 := wide hy' h2
        exact ⟨h3.1, h4.1, mul_small h3.2.2 h4.2.1 h4.2.2⟩
      · have h3 := small hy' h1
        have h4 := wide hx' (.inr (.inr h2))
        exact ⟨h4.1, h3.1, by rw [mul_comm]; exact mul_small h3.2.2 h4.2.1 h4.2.2⟩
    exact ⟨Ex.mulB f, by simp only [Ex.bounds, hx, hy, Option.bind_some, hm, if_true], mul nofun nofun⟩
  | div a b iha ihb =>
    obtain ⟨x, hx, hx'⟩ := iha h.1 hn.1.1
    obtain ⟨y, hy, hy'⟩ := ihb h.2 hn.1.2
    have hc : Ex.chainOk f y = true := chainOk_of (fun hf => hy'.2.2.2.1 hf (hn.2.1 hf).2) hn.2.2
    have hm : Ex.mulOk f x (Ex.sqB f) = true :=
      mulOk_of (fun hf => ⟨hx'.2.2.2.1 hf (hn.2.1 hf).1, (sqB_lo f).2 hf⟩) fun hf => absurd hf hn.2.2
    exact ⟨Ex.mulB f, by simp only [Ex.bounds, hx, hy, Option.bind_some, hm, hc, Bool.and_self, if_true], mul nofun nofun⟩
  | addI a n iha =>
    obtain ⟨x, hx, hx'⟩ := iha h.1 hn
    have h1 := foldB_lo hx'.1
    have h2 := h.2.1
    refine ⟨((Ex.foldB f x).1 + n, (Ex.foldB f x).2 + n), by simp only [Ex.bounds, hx, Option.map_some],
      oth (by dsimp only; linarith) (fun _ h3 => ?_) nofun nofun nofun⟩
    have : 0 ≤ n := not_lt.mp h3
    dsimp only
    linarith
  | subI a n iha =>
    obtain ⟨x, hx, hx'⟩ := iha h.1 hn
    have h1 := foldB_lo hx'.1
    have h2 := h.2.2
    refine ⟨((Ex.foldB f x).1 - n, (Ex.foldB f x).2 - n), by simp only [Ex.bounds, hx, Option.map_some],
      oth (by dsimp only; linarith) (fun _ h3 => ?_) nofun nofun nofun⟩
    have : n ≤ 0 := not_lt.mp h3
    dsimp only
    linarith
  | square a iha =>
    obtain ⟨x, hx, -⟩ := iha h hn
    exact ⟨Ex.sqB f, by simp only [Ex.bounds, hx, Option.map_some], sq nofun nofun nofun⟩
  | normalize a iha =>
    obtain ⟨x, hx, hx'⟩ := iha h hn
    exact ⟨(0, f.p - 1), by simp only [Ex.bounds, hx, Option.bind_some, hx'.1, if_true],
      nrm (le_refl _) (by dsimp only; linarith) (by dsimp only; linarith) nofun nofun⟩
  | neg a iha => exact hn.elim
  | invert a iha =>
    obtain ⟨x, hx, hx'⟩ := iha h hn.1
    have hc : Ex.chainOk f x = true := chainOk_of (fun hf => hx'.2.2.2.1 hf (hn.2.1 hf)) hn.2.2
    exact ⟨Ex.sqB f, by simp only [Ex.bounds, hx, Option.bind_some, hc, if_true], sq nofun nofun nofun⟩
  | legendre a iha =>
    obtain ⟨x, hx, hx'⟩ := iha h hn.1
    have hc : Ex.chainOk f x = true := chainOk_of (fun hf => hx'.2.2.2.1 hf (hn.2.1 hf)) hn.2.2
    exact ⟨Ex.sqB f, by simp only [Ex.bounds, hx, Option.bind_some, hc, if_true], sq nofun nofun nofun⟩
  | sqrt a iha =>
    obtain ⟨x, hx, hx'⟩ := iha h hn.1
    have hc : Ex.chainOk f x = true := chainOk_of (fun hf => hx'.2.2.2.1 hf (hn.2.1 hf)) hn.2.2
    exact ⟨Ex.sqB f, by simp only [Ex.bounds, hx, Option.bind_some, hc, if_true], sq nofun nofun nofun⟩

/-- Careful computations refine `ℤ / p`, in all nine types. -/
theorem C25_careful_partial (f : Fld) (pr : Profile) (e : Ex) (h : e.Valid f) (hn : e.Careful f) :
    ∃ r a' out, e.exec f pr = .ok r ∧ f.code.packed pr r = .ok (a', out) ∧
      out.length = f.nbytes ∧ IsBytes out ∧ leVal out = ((e.den f).val : Int) := by
  obtain ⟨b, h1, h2⟩ := bounds_careful f e h hn
  exact C25_refines_partial f pr e h h1 h2.1

/-- Full statement of C25, even without `-` between elements (false for two types). -/
def C25_statement : Prop := ∀ (f : Fld) (pr : Profile) (e : Ex), e.Valid f → e.NoSub f →
  ∃ r a' out, e.exec f pr = .ok r ∧ f.code.packed pr r = .ok (a', out) ∧
    out.length = f.nbytes ∧ IsBytes out ∧ leVal out = ((e.den f).val : Int)

set_option maxRecDepth 100000 in
/-- `(0 - 1i32) * 1` is wrong in `Mod_e222_117`. -/
theorem C25_statement_false : ¬ C25_statement := by
  intro h
  obtain ⟨r, a', out, h1, h2, -, -, h3⟩ := h .e222_117 .debug (.mul (.subI .zero 1) .one)
    ⟨⟨trivial, by unfold IsI32; decide⟩, trivial⟩ ⟨trivial, trivial⟩
  have h4 : (match (Ex.mul (.subI .zero 1) .one).exec .e222_117 .debug with
    | .ok r => match Fld.e222_117.code.packed .debug r with
      | .ok (_, out) => decide (leVal out = Fld.e222_117.p - 1)
      | .error _ => true
    | .error _ => true) = false := by decide +kernel
  rw [h1] at h4
  simp only [h2] at h4
  refine of_decide_eq_false h4 (h3.trans ?_)
  have e1 : (Ex.mul (.subI .zero 1) .one).den .e222_117 = ((Fld.e222_117.p - 1 : Int) : ZMod _) := by
    push_cast
    rw [dvd_iff.mp (dvd_refl e222_117.p)]
    simp [Ex.den]
  rw [e1, ZMod.val_intCast, ← p_eq]
  decide +kernel

/-- `((0 - 1i32) + 0) / (1 + 1i32)`: the left operand is the result of `+`. -/
example : let e := Ex.div (.add (.subI .zero 1) .zero) (.addI .one 1)
    e.Valid .e222_117 ∧ e.Careful .e222_117 := by
  refine ⟨⟨⟨⟨trivial, ?_⟩, trivial⟩, trivial, ?_⟩, ⟨⟨trivial, trivial⟩, trivial⟩, fun _ => ⟨nofun, ?_⟩, nofun⟩
  · unfold IsI32; decide
  · unfold IsI32; decide
  · show ¬ (1 : Int) < 0; decide

/-- `normalize(x - normalize(y * x)) * x * x` of unpacked `x`, `y` in `Mod_e251_9`. -/
example {x y : List Int} (hx : IsBytes x ∧ 32 ≤ x.length) (hy : IsBytes y ∧ 32 ≤ y.length) :
    let e := Ex.mul (.mul (.normalize (.sub (.bytes x) (.normalize (.mul (.bytes y) (.bytes x))))) (.bytes x)) (.bytes x)
    e.Valid .e251_9 ∧ e.Careful .e251_9 := by
  refine ⟨⟨⟨⟨hx, hy, hx⟩, hx⟩, hx⟩, ⟨⟨⟨⟨⟨nofun, ⟨nofun, nofun⟩, nofun, fun _ => .inl ⟨.inr trivial, .inr (.inl trivial)⟩⟩,
    trivial⟩, nofun⟩, nofun, fun _ => .inl ⟨.inl trivial, .inr (.inl trivial)⟩⟩, nofun⟩, nofun,
    fun _ => .inr ⟨.inr trivial, trivial⟩⟩

/-- The analysis also accepts computations in the other two types, and with `-`. -/
example : ((Ex.sub (.mul (.add .mOne .mOne) (.normalize (.square .mOne))) .mOne).bounds
    .e251_9).isSome = true := by decide +kernel
example : ((Ex.div (.mul (.add .mOne .mOne) (.square (.subI .zero 1))) (.add .one .one)).bounds
    .e222_117).isSome = true := by decide +kernel

end Verif
