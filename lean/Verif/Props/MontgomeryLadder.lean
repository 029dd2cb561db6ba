import Verif.Curve.XZProgram
import Verif.Props.Twists
import Verif.Props.TextClients
import Verif.Props.Integers
import Verif.Props.Encodings

/-!
# Property C79: key agreement on the Montgomery curves

The repository has field types and constants for five Montgomery curves but no code for them.  `Mont.program` (`Verif/Curve/XZProgram.lean`)
is the usual program on first coordinates (X25519 of RFC 7748, for any of the five curves) as a client of the field type.  A client that
normalizes every new element computes what it should with the field files as they are, for every byte string it may receive, whether
the coordinate belongs to the curve or to its twist; one that does not normalize is wrong from small scalars on.
-/

namespace Verif
open Fld FieldCode WeierstrassCurve.Affine Rust

namespace Mont
variable {c : Mont}

/-- The first coordinate; zero for the point at infinity. -/
def x {W : WeierstrassCurve.Affine c.K} : W.Point → c.K
  | .zero => 0
  | .some x _ _ => x

/-- The element a byte string stands for. -/
def received (c : Mont) (us : List Int) : c.K := ((leVal (us.take c.fld.nbytes) % 2 ^ c.fld.n : Int) : c.K)

private theorem two_ne : (2 : c.K) ≠ 0 := by
  intro h
  have h1 : ((2 : Int) : c.K) = ((0 : Int) : c.K) := by exact_mod_cast h
  rw [← Fld.modEq_iff] at h1
  revert h1
  cases c <;> decide +kernel

private theorem A_ne : (c.A : c.K) ^ 2 - 4 ≠ 0 := by
  intro h
  have h1 : ((c.A ^ 2 - 4 : Int) : c.K) = ((0 : Int) : c.K) := by push_cast; exact h
  rw [← Fld.modEq_iff] at h1
  revert h1
  cases c <;> decide +kernel

private theorem ideal_W {e : c.K} (he : e ≠ 0) {s us : List Int} (hs : IsBytes s) (P : (XZ.W (c.A : c.K) e).Point)
    (hP : XZ.coord P = c.received us) :
    (c.program s us).ideal c.fld [] = leBytes c.fld.nbytes (XZ.coord ((leVal s).toNat • P)).val := by
  rw [c.ideal_program s us _ hP.symm, XZ.ladder_coord two_ne he A_ne, ← bitsVal_scalar hs, Int.toNat_natCast]

private theorem coord_eq {e : c.K} (P : (c.twist e).Point) : XZ.coord (A := (c.A : c.K)) (e := e) P = x P / e := by
  cases P with
  | zero => exact (zero_div e).symm
  | some => rfl

private theorem curve_eq : c.curve = c.twist 1 := by
  simp only [curve, twist, one_mul, one_pow]

/-- In `ℤ / p` (helper lemma); `x P / e` is the first coordinate on `e y² = x³ + A x² + x`, see `C68_montgomery_model`. -/
theorem ideal_twist {e : c.K} (he : e ≠ 0) {s us : List Int} (hs : IsBytes s) (P : (c.twist e).Point)
    (hP : x P / e = c.received us) :
    (c.program s us).ideal c.fld [] = leBytes c.fld.nbytes (x ((leVal s).toNat • P) / e).val := by
  exact (ideal_W he hs P (by rw [coord_eq, hP])).trans (by rw [← coord_eq]; rfl)

theorem ideal_curve {s us : List Int} (hs : IsBytes s) (P : c.curve.Point) (hP : x P = c.received us) :
    (c.program s us).ideal c.fld [] = leBytes c.fld.nbytes (x ((leVal s).toNat • P)).val := by
  have key : ∀ (W : WeierstrassCurve.Affine c.K) (_ : W = c.twist 1) (P : W.Point) (_ : x P = c.received us),
      (c.program s us).ideal c.fld [] = leBytes c.fld.nbytes (x ((leVal s).toNat • P)).val := by
    rintro W rfl P hP
    rw [ideal_twist one_ne_zero hs P (by rw [hP, div_one]), div_one]
  exact key c.curve curve_eq P hP

/-- The points of order two with first coordinate zero (helper lemma). -/
theorem two_of_x {e : c.K} (he : e ≠ 0) {P : (c.twist e).Point} (h : x P = 0) : P + P = 0 :=
  XZ.two_coord (A := (c.A : c.K)) he (by rw [coord_eq, h, zero_div])

theorem two_of_x_curve {P : c.curve.Point} (h : x P = 0) : P + P = 0 := by
  have key : ∀ (W : WeierstrassCurve.Affine c.K) (_ : W = c.twist 1) (P : W.Point) (_ : x P = 0), P + P = 0 := by
    rintro W rfl P hP
    exact two_of_x one_ne_zero hP
  exact key c.curve curve_eq P h

theorem received_leBytes (v : c.K) : c.received (leBytes c.fld.nbytes v.val) = v ∧ (Op.bytes (leBytes c.fld.nbytes v.val)).Valid c.fld := by
  have hp : c.fld.pN < 2 ^ c.fld.n ∧ c.fld.n ≤ 8 * c.fld.nbytes ∧ 0 < c.fld.pN := by clear v; cases c <;> decide +kernel
  have : NeZero c.fld.pN := ⟨hp.2.2.ne'⟩
  have h1 : v.val < 2 ^ c.fld.n := (ZMod.val_lt v).trans hp.1
  have h2 : leVal (leBytes c.fld.nbytes v.val) = v.val :=
    leVal_leBytes _ _ (h1.trans_le (Nat.pow_le_pow_right (by norm_num) hp.2.1))
  have h3 : (leBytes c.fld.nbytes v.val).take c.fld.nbytes = leBytes c.fld.nbytes v.val :=
    List.take_of_length_le (leBytes_length _ _).le
  have h4 : ((v.val : Nat) : Int) < 2 ^ c.fld.n := by exact_mod_cast h1
  refine ⟨?_, leBytes_isBytes _ _, (leBytes_length _ _).ge, fun _ => ?_⟩
  · rw [received, h3, h2, Int.emod_eq_of_lt (Int.natCast_nonneg _) h4, Int.cast_natCast, ZMod.natCast_zmod_val]
  · rw [h3, h2]; exact h4

theorem cast_leBytes (v : c.K) : ((leVal (leBytes c.fld.nbytes v.val) : Int) : c.K) = v := by
  have hp : c.fld.pN < 2 ^ (8 * c.fld.nbytes) ∧ 0 < c.fld.pN := by clear v; cases c <;> decide +kernel
  have : NeZero c.fld.pN := ⟨hp.2.ne'⟩
  rw [leVal_leBytes _ _ ((ZMod.val_lt v).trans hp.1), Int.cast_natCast, ZMod.natCast_zmod_val]

theorem leBytes_zero_iff (v : c.K) : leBytes c.fld.nbytes v.val = leBytes c.fld.nbytes 0 ↔ v = 0 := by
  refine ⟨fun h => ?_, fun h => by rw [h, ZMod.val_zero]⟩
  rw [← (received_leBytes v).1, h, ← ZMod.val_zero (n := c.fld.pN), (received_leBytes (0 : c.K)).1]

/-- Multiples of eight that are zero, or of order two (helper lemma). -/
theorem killed {G : Type*} [AddCommGroup G] {h l s : Nat} (hl : l.Prime) (l2 : l ≠ 2) (h8 : h ∣ 8) (hc : Nat.card G = h * l)
    (hs : ¬ l ∣ s) {P : G} (h2 : s • P + s • P = 0) : 8 • P = 0 := by
  have h1 : addOrderOf P ∣ s * 2 := addOrderOf_dvd_of_nsmul_eq_zero (by rw [mul_nsmul, two_nsmul, h2])
  have h3 : addOrderOf P ∣ h * l := by rw [← hc]; exact addOrderOf_dvd_natCard P
  have h4 : Nat.Coprime l (s * 2) := by
    refine (Nat.Prime.coprime_iff_not_dvd hl).2 fun hd => ?_
    rcases (Nat.Prime.dvd_mul hl).1 hd with hd | hd
    · exact hs hd
    · exact l2 ((Nat.prime_dvd_prime_iff_eq hl Nat.prime_two).1 hd)
  have h5 : addOrderOf P ∣ h := (Nat.Coprime.coprime_dvd_right h1 h4).symm.dvd_of_dvd_mul_right h3
  exact addOrderOf_dvd_iff_nsmul_eq_zero.1 (h5.trans h8)

theorem args_rounds (f : Fld) : ∀ (l : List Bool) (n i j i' j' : Nat), (ladderRounds l n i j i' j').Args f
  | [], _, _, _, _, _ => ⟨trivial, fun _ _ _ => trivial⟩
  | b :: l, n, i, j, i', j' => by
    simp only [ladderRounds, ladderRound, Client.ops, List.foldr_cons, List.foldr_nil, Client.Args, Op.Args, true_and]
    exact args_rounds f l _ _ _ _ _

/-- The bytes of the first coordinate of the exported base point. -/
def baseBytes (c : Mont) : List Int := leBytes c.fld.nbytes (c.fld.V c.baseX).toNat

/-- A small scalar. -/
def small : Mont → Int
  | m221 => 10 | curve25519 => 2 | m383 => 2 | curve383187 => 4 | m511 => 5

/-- The result without normalization, if it is not the right one. -/
def wrong (c : Mont) : Option (List Int) :=
  ((c.program [c.small] c.baseBytes).int c.fld []).filter fun out =>
    ladderB c.fld.p c.A (c.fld.V c.baseX) (fun X Z => !decide (Z % c.fld.p = 0) && !decide ((leVal out * Z - X) % c.fld.p = 0))
      (scalarBits [c.small]) 1 0 (c.fld.V c.baseX) 1

set_option maxRecDepth 100000 in
theorem wrong_isSome (c : Mont) : c.wrong.isSome = true := by cases c <;> decide +kernel

set_option maxRecDepth 100000 in
theorem received_base (c : Mont) : x c.base = c.received c.baseBytes := by
  have h : leVal (c.baseBytes.take c.fld.nbytes) % 2 ^ c.fld.n = c.fld.V c.baseX := by cases c <;> decide +kernel
  rw [received, h]
  rfl

set_option maxRecDepth 100000 in
theorem valid_base (c : Mont) : (Op.bytes c.baseBytes).Valid c.fld := by
  refine ⟨leBytes_isBytes _ _, (leBytes_length _ _).ge, fun _ => ?_⟩
  cases c <;> decide +kernel

/-- A result that can be checked without a division (helper lemma for the test vector below). -/
theorem result_of {s us out : List Int} {u : Int} (hu : leVal (us.take c.fld.nbytes) % 2 ^ c.fld.n = u)
    (ho : IsBytes out ∧ out.length = c.fld.nbytes ∧ leVal out < c.fld.p)
    (h : ladderB c.fld.p c.A u (fun X Z => !decide (Z % c.fld.p = 0) && decide ((leVal out * Z - X) % c.fld.p = 0))
      (scalarBits s) 1 0 u 1 = true) : (c.program s us).ideal c.fld [] = out := by
  obtain ⟨X, Z, h1, h2⟩ := ladderB_is _ h
  simp only [Bool.and_eq_true, Bool.not_eq_true', decide_eq_false_iff_not, decide_eq_true_eq, ← cast_eq_zero] at h1
  simp only [Int.cast_one, Int.cast_zero] at h2
  rw [c.ideal_program s us u (by rw [hu]), h2]
  have h3 : (X : c.K) = ((leVal out : Int) : c.K) * (Z : c.K) := by
    have := h1.2
    push_cast at this
    linear_combination -this
  have h4 : (X : c.K) * (Z : c.K)⁻¹ = ((leVal out : Int) : c.K) := by
    rw [h3, mul_assoc, mul_inv_cancel₀ h1.1, mul_one]
  have h5 : (((leVal out : Int) : c.K).val : Int) = leVal out := by
    rw [ZMod.val_intCast, ← p_eq, Int.emod_eq_of_lt (leVal_nonneg ho.1) ho.2.2]
  dsimp only
  rw [h4, ← ho.2.1]
  exact (eq_leBytes ho.1 h5.symm).symm

end Mont

/-- C79, points of the curve: the program returns the first coordinate of the multiple, in all builds. -/
theorem C79_curve (c : Mont) (w : World) {s us : List Int} (hs : IsBytes s) (hu : (Op.bytes us).Valid c.fld) (P : c.curve.Point)
    (hP : Mont.x P = c.received us) :
    (c.program s us).text (src c.fld) w 12 c.fld true = .ok (leBytes c.fld.nbytes (Mont.x ((leVal s).toNat • P)).val) := by
  rw [C59_client_normalizing c.fld w _ (c.uses_program s us hu), Mont.ideal_curve hs P hP]

/-- C79, points of the twists. -/
theorem C79_twist (c : Mont) (w : World) {s us : List Int} (hs : IsBytes s) (hu : (Op.bytes us).Valid c.fld) {e : c.K} (he : e ≠ 0)
    (P : (c.twist e).Point) (hP : Mont.x P / e = c.received us) :
    (c.program s us).text (src c.fld) w 12 c.fld true = .ok (leBytes c.fld.nbytes (Mont.x ((leVal s).toNat • P) / e).val) := by
  rw [C59_client_normalizing c.fld w _ (c.uses_program s us hu), Mont.ideal_twist he hs P hP]

/-- C79: one or the other applies to every byte string. -/
theorem C79_received (c : Mont) (us : List Int) {e : c.K} (he : ¬ IsSquare e) :
    (∃ P : c.curve.Point, Mont.x P = c.received us) ∨ ∃ P : (c.twist e).Point, Mont.x P / e = c.received us := by
  have e0 : e ≠ 0 := by rintro rfl; exact he IsSquare.zero
  rcases C68_montgomery_x c he (c.received us) with ⟨y, h⟩ | ⟨y, h⟩
  · left
    have hn := (C68_montgomery_model c one_ne_zero (c.received us) y).2 (by rw [one_mul, h])
    rw [one_mul, one_pow, one_mul, ← Mont.curve_eq] at hn
    exact ⟨.some _ _ hn, rfl⟩
  · right
    exact ⟨.some _ _ ((C68_montgomery_model c e0 (c.received us) y).2 h), mul_div_cancel_left₀ _ e0⟩

/-- C79: two clients, also with different builds, get the same secret from each other's messages, whatever byte string they begin with. -/
theorem C79_agree (c : Mont) (w w' : World) {s t us : List Int} (hs : IsBytes s) (ht : IsBytes t) (hu : (Op.bytes us).Valid c.fld) :
    ∃ a b z, (c.program s us).text (src c.fld) w 12 c.fld true = .ok a ∧ (c.program t us).text (src c.fld) w' 12 c.fld true = .ok b ∧
      (c.program s b).text (src c.fld) w 12 c.fld true = .ok z ∧ (c.program t a).text (src c.fld) w' 12 c.fld true = .ok z := by
  have e0 : (2 : c.K) ≠ 0 := fun h => two_nonsquare c (h ▸ IsSquare.zero)
  rcases C79_received c us (two_nonsquare c) with ⟨P, hP⟩ | ⟨P, hP⟩
  · refine ⟨_, _, _, C79_curve c w hs hu P hP, C79_curve c w' ht hu P hP,
      C79_curve c w hs (Mont.received_leBytes _).2 _ (Mont.received_leBytes _).1.symm, ?_⟩
    rw [C79_curve c w' ht (Mont.received_leBytes _).2 _ (Mont.received_leBytes _).1.symm, smul_comm]
  · refine ⟨_, _, _, C79_twist c w hs hu e0 P hP, C79_twist c w' ht hu e0 P hP,
      C79_twist c w hs (Mont.received_leBytes _).2 e0 _ (Mont.received_leBytes _).1.symm, ?_⟩
    rw [C79_twist c w' ht (Mont.received_leBytes _).2 e0 _ (Mont.received_leBytes _).1.symm, smul_comm]

/-- C79: for scalars divisible by eight, as RFC 7748 makes them, the result is zero just for the points whose order divides eight. -/
theorem C79_zero (c : Mont) (w : World) {s us : List Int} (hs : IsBytes s) (h8 : 8 ∣ leVal s) (hu : (Op.bytes us).Valid c.fld) :
    (¬ c.fld.V c.order ∣ leVal s → ∀ P : c.curve.Point, Mont.x P = c.received us →
      ((c.program s us).text (src c.fld) w 12 c.fld true = .ok (leBytes c.fld.nbytes 0) ↔ 8 • P = 0)) ∧
    (¬ (c.twistOrder : Int) ∣ leVal s → ∀ e : c.K, ¬ IsSquare e → ∀ P : (c.twist e).Point, Mont.x P / e = c.received us →
      ((c.program s us).text (src c.fld) w 12 c.fld true = .ok (leBytes c.fld.nbytes 0) ↔ 8 • P = 0)) := by
  obtain ⟨k, hk⟩ := h8
  have h0 : 0 ≤ leVal s := leVal_nonneg hs
  obtain ⟨m, rfl⟩ := Int.eq_ofNat_of_zero_le (show 0 ≤ k by omega)
  have hn : (leVal s).toNat = 8 * m := by omega
  have hs' : leVal s = ((8 * m : Nat) : Int) := by omega
  constructor
  · intro hd P hP
    rw [C79_curve c w hs hu P hP, Except.ok.injEq, Mont.leBytes_zero_iff, hn]
    refine ⟨fun h => ?_, fun h => by rw [mul_nsmul, h, nsmul_zero]; rfl⟩
    refine Mont.killed (C40_order_prime c) (by clear h hd hP P; cases c <;> decide +kernel) dvd_rfl (C46_montgomery_card c) ?_
      (Mont.two_of_x_curve h)
    intro hd'
    apply hd
    rw [hs', ← Int.toNat_of_nonneg (a := c.fld.V c.order) (by clear h hd hP P hd'; cases c <;> decide +kernel)]
    exact Int.natCast_dvd_natCast.2 hd'
  · intro hd e he P hP
    have e0 : e ≠ 0 := by rintro rfl; exact he IsSquare.zero
    rw [C79_twist c w hs hu e0 P hP, Except.ok.injEq, Mont.leBytes_zero_iff, hn]
    refine ⟨fun h => ?_, fun h => by rw [mul_nsmul, h, nsmul_zero]; exact zero_div e⟩
    refine Mont.killed (C68_montgomery_prime c).1 (by clear h hd hP P; cases c <;> decide +kernel) (by norm_num)
      (C68_montgomery_card c he) ?_ (Mont.two_of_x e0 ((div_eq_zero_iff.1 h).resolve_right e0))
    intro hd'
    apply hd
    rw [hs']
    exact Int.natCast_dvd_natCast.2 hd'

/-- C79: without normalization the program gives a wrong result for the exported base points and small scalars, in all builds. -/
theorem C79_naive (c : Mont) : ∃ out, (∀ w, (c.program [c.small] c.baseBytes).text (src c.fld) w 12 c.fld false = .ok out) ∧
    out ≠ leBytes c.fld.nbytes (Mont.x (c.small.toNat • c.base)).val := by
  obtain ⟨out, ho⟩ := Option.isSome_iff_exists.1 c.wrong_isSome
  rw [Mont.wrong, Option.filter_eq_some_iff] at ho
  have hs : IsBytes [c.small] := by
    intro b hb
    rw [List.mem_singleton.1 hb]
    cases c <;> decide
  have h := C64_text c.fld (c.program [c.small] c.baseBytes)
    ⟨leBytes_isBytes _ _, trivial, ⟨by cases c <;> decide, by cases c <;> decide⟩, trivial, Mont.args_rounds _ _ _ _ _ _ _⟩
  rw [ho.1] at h
  refine ⟨out, h, fun he => ?_⟩
  obtain ⟨X, Z, h1, h2⟩ := Mont.ladderB_is _ ho.2
  simp only [Bool.and_eq_true, Bool.not_eq_true', decide_eq_false_iff_not, ← Mont.cast_eq_zero] at h1
  have h3 := (Mont.ideal_curve hs c.base (Mont.received_base c)).symm.trans
    (c.ideal_program [c.small] c.baseBytes _ (Mont.received_base c).symm)
  have h4 : Mont.x c.base = ((c.fld.V c.baseX : Int) : c.K) := rfl
  simp only [Int.cast_one, Int.cast_zero] at h2
  have h5 : (leVal [c.small]).toNat = c.small.toNat := by cases c <;> decide
  rw [h4, h2, h5, ← he] at h3
  apply h1.2
  rw [h3, Int.cast_sub, Int.cast_mul, Mont.cast_leBytes, mul_assoc, inv_mul_cancel₀ h1.1, mul_one, sub_self]

/-! ### Examples -/

/-- The exported base points. -/
example (c : Mont) (w : World) (s : List Int) (hs : IsBytes s) : (c.program s c.baseBytes).text (src c.fld) w 12 c.fld true =
    .ok (leBytes c.fld.nbytes (Mont.x ((leVal s).toNat • c.base)).val) :=
  C79_curve c w hs (Mont.valid_base c) c.base (Mont.received_base c)

/-- Public keys and the shared secret. -/
example (c : Mont) (w w' : World) : ∃ a b z, (c.program [88, 99, 64] c.baseBytes).text (src c.fld) w 12 c.fld true = .ok a ∧
    (c.program [8, 1] c.baseBytes).text (src c.fld) w' 12 c.fld true = .ok b ∧
    (c.program [88, 99, 64] b).text (src c.fld) w 12 c.fld true = .ok z ∧
    (c.program [8, 1] a).text (src c.fld) w' 12 c.fld true = .ok z :=
  C79_agree c w w' (by simp [IsBytes]) (by simp [IsBytes]) (Mont.valid_base c)

/-- The point `(0, 0)` of the twist by two. -/
example (c : Mont) (w : World) : (c.program [3] (leBytes c.fld.nbytes 0)).text (src c.fld) w 12 c.fld true =
    .ok (leBytes c.fld.nbytes (Mont.x ((leVal [3]).toNat • (Point.some _ _
      ((C68_montgomery_model c Mont.two_ne 0 0).2 (by ring)) : (c.twist 2).Point)) / 2).val) := by
  have h := Mont.received_leBytes (0 : c.K)
  rw [ZMod.val_zero] at h
  refine C79_twist c w (by simp [IsBytes]) h.2 Mont.two_ne _ ?_
  rw [h.1]
  exact (congrArg (· / 2) (mul_zero (2 : c.K))).trans (zero_div _)

/-- Every string of bytes. -/
example (us : List Int) : (∃ P : Mont.curve25519.curve.Point, Mont.x P = Mont.curve25519.received us) ∨
    ∃ P : (Mont.curve25519.twist 2).Point, Mont.x P / 2 = Mont.curve25519.received us :=
  C79_received _ us (two_nonsquare _)

/-- The exported base points do not lead to zero. -/
example (c : Mont) (w : World) :
    (c.program [88, 99, 64] c.baseBytes).text (src c.fld) w 12 c.fld true ≠ .ok (leBytes c.fld.nbytes 0) := by
  intro h
  have h1 := ((C79_zero c w (by simp [IsBytes]) (by decide) (Mont.valid_base c)).1 (by cases c <;> decide +kernel) c.base
    (Mont.received_base c)).1 h
  have h2 := addOrderOf_dvd_of_nsmul_eq_zero h1
  rw [(C40_base c).2.2.2.2.2] at h2
  revert h2
  cases c <;> decide +kernel

/-- The first test vector of RFC 7748 (the scalar after `decodeScalar25519`). -/
example (w : World) : (Mont.curve25519.program
    [160, 70, 227, 107, 240, 82, 124, 157, 59, 22, 21, 75, 130, 70, 94, 221, 98, 20, 76, 10, 193, 252, 90, 24, 80, 106, 34, 68, 186, 68,
      154, 68]
    [230, 219, 104, 103, 88, 48, 48, 219, 53, 148, 193, 164, 36, 177, 95, 124, 114, 102, 36, 236, 38, 179, 53, 59, 16, 169, 3, 166, 208,
      171, 28, 76]).text (src .e255_19) w 12 .e255_19 true =
    .ok [195, 218, 85, 55, 157, 233, 198, 144, 142, 148, 234, 77, 242, 141, 8, 79, 50, 236, 207, 3, 73, 28, 113, 247, 84, 180, 7, 85, 119,
      162, 133, 82] := by
  rw [C59_client_normalizing .e255_19 w _ (Mont.curve25519.uses_program _ _ ⟨by simp [IsBytes], by decide, nofun⟩)]
  refine congrArg Except.ok (Mont.result_of (c := .curve25519) rfl ⟨by simp [IsBytes], by decide, by decide +kernel⟩ ?_)
  decide +kernel

end Verif
