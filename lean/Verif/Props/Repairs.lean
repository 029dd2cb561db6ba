import Verif.Curve.Repaired

/-!
# C57: with the listed repairs the refuted properties hold

`Verif/Model/Repaired.lean` is the code with the edits listed there.  The statements are those of C02,
C03, C04, C07, C09 to C13 and C26 to C31 without side conditions: the counterexamples to these properties
have the causes listed in `DESIGN.md`, section 4, and no others.
-/

namespace Verif
open EdwardsExtended


section
variable (f : Fld) (pr : Profile)

/-- C57, subtraction and negation (C02, C03): right for all representations. -/
theorem C57_sub {a b : Elem} (ha : f.Rep a) (hb : f.Rep b) :
    (∃ r, Repaired.subAssign f pr a b = .ok r ∧ f.Tight r ∧ f.Denotes r (f.V a - f.V b)) ∧
    ∃ r, Repaired.neg f pr a = .ok r ∧ f.Tight r ∧ f.Denotes r (-f.V a) := by
  refine ⟨?_, Repaired.neg_ok f pr ha⟩
  obtain ⟨r, h1, h2, h3⟩ := Repaired.sub_exact f pr ha hb
  refine ⟨r, h1, Repaired.sub_tight f h2, ?_⟩
  rw [Fld.Denotes, h3]
  exact (Fld.fold_modEq f _).sub (Fld.fold_modEq f _)

/-- C57, products (C04, C07): right for all operands with bounded carries, and for every `i32`. -/
theorem C57_mul {a b : Elem} (ha : f.Loose a) (hb : f.Loose b) {n : Int} (hn : IsI32 n) :
    (∃ r, Repaired.mulAssign f pr a b = .ok r ∧ f.Tight r ∧ f.Denotes r (f.V a * f.V b)) ∧
    ∃ r, Repaired.smallMulAssign f pr a n = .ok r ∧ f.Tight r ∧ f.Denotes r (f.V a * n) :=
  ⟨Repaired.mul_ok f pr ha hb, Repaired.smallMul_ok f pr ha hn⟩

/-- C57, squares (C05): `square` denotes the residue of `a * a`. -/
theorem C57_square {a : Elem} (ha : f.Tight a) :
    ∃ r s, f.code.square pr a = .ok r ∧ Repaired.mulAssign f pr a a = .ok s ∧
      f.Denotes r (f.V s) := by
  obtain ⟨r, h1, -, h2⟩ := C05_square f pr ha
  obtain ⟨s, h3, -, h4⟩ := Repaired.mul_ok f pr ha.loose ha.loose
  exact ⟨r, s, h1, h3, h2.trans h4.symm⟩

/-- C57, normalization (C09): the canonical representative, for all representations. -/
theorem C57_normalize {a : Elem} (ha : f.Rep a) :
    ∃ r, Repaired.normalize f pr a = .ok r ∧ f.Canon (f.V a % f.p) r := Repaired.normalize_ok f pr ha

/-- C57, comparison (C10): normalized representations are equal exactly when the residues are. -/
theorem C57_compare {a b : Elem} (ha : f.Rep a) (hb : f.Rep b) :
    ∃ r s, Repaired.normalize f pr a = .ok r ∧ Repaired.normalize f pr b = .ok s ∧
      (r = s ↔ f.V a ≡ f.V b [ZMOD f.p]) := by
  obtain ⟨r, h1, h2⟩ := Repaired.normalize_ok f pr ha
  obtain ⟨s, h3, h4⟩ := Repaired.normalize_ok f pr hb
  refine ⟨r, s, h1, h3, fun h => ?_, fun h => ?_⟩
  · rw [Int.ModEq, ← h2.2.1, ← h4.2.1, h]
  · rw [Int.ModEq] at h
    rw [h] at h2
    exact C09_canonical_unique f h2 h4

/-- C57, packing (C11): the little-endian bytes of the canonical value. -/
theorem C57_pack {a : Elem} {bytes : List Int} (ha : f.Rep a) (hb : IsBytes bytes)
    (hl : f.nbytes ≤ bytes.length) :
    ∃ a' out, Repaired.pack f pr a bytes = .ok (a', out ++ bytes.drop f.nbytes) ∧
      f.Canon (f.V a % f.p) a' ∧ out.length = f.nbytes ∧ IsBytes out ∧ leVal out = f.V a % f.p := by
  obtain ⟨a', h1, ca⟩ := Repaired.normalize_ok f pr ha
  obtain ⟨out, h3, h4, h5, h6⟩ := Fld.packNormalized_exact pr ca.1 hb hl
  refine ⟨a', out, ?_, ca, h4, h5, h6.trans ca.2.1⟩
  simp only [Repaired.pack, h1, h3, bind, Except.bind, pure, Except.pure]

/-- C57, unpacking (C12): the low `n` bits in all nine types. -/
theorem C57_unpack {a : Elem} {bytes : List Int} (ha : f.IsWords a) (hb : IsBytes bytes)
    (hl : f.nbytes ≤ bytes.length) :
    ∃ r, (Repaired.code f).unpack pr a bytes = .ok r ∧ f.Shape 0 (2 ^ f.tb - 1) r ∧
      f.V r = leVal (bytes.take f.nbytes) % 2 ^ f.n := by
  by_cases hf : f = .e383_187
  · subst hf
    rw [show Fld.e383_187.n = 383 from rfl, show Fld.e383_187.nbytes = 48 from rfl,
      show Fld.e383_187.tb = 47 from rfl]
    exact Repaired.unpack_e383 pr ha hb hl
  · obtain ⟨r, h1, h2⟩ := C12_unpack_partial f pr hf ha hb hl
    refine ⟨r, ?_, h2⟩
    rw [← h1]
    cases f <;> first | exact absurd rfl hf | rfl

/-- C57, round trip (C13): unpacking the bytes that `pack` wrote gives back the canonical element. -/
theorem C57_unpack_pack {a b : Elem} {bytes : List Int} (ha : f.Rep a) (hb : f.IsWords b)
    (hs : IsBytes bytes) (hl : bytes.length = f.nbytes) :
    ∃ a' out, Repaired.pack f pr a bytes = .ok (a', out) ∧
      (Repaired.code f).unpack pr b out = .ok a' ∧ f.V a' ≡ f.V a [ZMOD f.p] := by
  obtain ⟨a', out, h1, h2, h3, h4, h5⟩ := C57_pack f pr ha hs hl.ge
  rw [List.drop_of_length_le hl.le, List.append_nil] at h1
  obtain ⟨r, h6, h7, h8⟩ := C57_unpack f pr hb h4 h3.ge
  rw [← h3, List.take_length, h5, Int.emod_eq_of_lt h2.2.2.1 (h2.2.2.2.trans f.p_lt)] at h8
  have e : r = a' := C09_canonical_unique f ⟨h7, h8, h2.2.2⟩ h2
  refine ⟨a', out, h1, e ▸ h6, ?_⟩
  rw [h2.2.1]
  exact Int.mod_modEq _ _

end

section
variable (c : Crv) (pr : Profile)

/-- C57, points (C26, C27, C28, C29, C30): the unchanged addition and doubling and the repaired
tripling, neutral element and `init` are right over the repaired types, for all points of the five
curves and all their representations. -/
theorem C57_points {p q : EdwardsExtended Elem} {P Q : c.Point} (hp : c.Represents p P)
    (hq : c.Represents q Q) :
    (∃ r, p.addAssign (Repaired.scalar c pr) q = .ok r ∧ c.Represents r (P + Q)) ∧
    (∃ r, p.double (Repaired.scalar c pr) = .ok r ∧ c.Represents r (P + P)) ∧
    (∃ r, Repaired.triple (Repaired.scalar c pr) p = .ok r ∧ c.Represents r (P + P + P)) ∧
    c.Represents (Repaired.zero (Repaired.scalar c pr)) 0 ∧
    ∀ x y, c.fld.Tight x → c.fld.Tight y → c.den x = P.x → c.den y = P.y →
      ∃ r, Repaired.init (Repaired.scalar c pr) x y = .ok r ∧ c.Represents r P := by
  have L := Repaired.lawful c pr
  obtain ⟨r, h1, -, h2⟩ := C26_add_exact_partial L hp hq
  obtain ⟨s, h3, -, h4⟩ := C27_double_exact_partial L hp.1
  refine ⟨⟨r, h1, h2⟩, ⟨s, h3, h4⟩, Repaired.triple_repr L hp.1, Repaired.zero_repr L, ?_⟩
  intro x y hx hy ex ey
  obtain ⟨t, t1, t2, t3⟩ := L.exact.mul hx hy trivial
  obtain ⟨o1, o2⟩ := L.exact.one
  refine ⟨⟨x, y, (Repaired.scalar c pr).one, t⟩, ?_, ⟨⟨hx, hy, o1, t2⟩, ?_, ?_, ?_⟩, ?_⟩
  · simp only [Repaired.init, t1, bind, Except.bind, pure, Except.pure]
  · rw [o2]; exact one_ne_zero
  · rw [o2, mul_one, ex]
  · rw [o2, mul_one, ey]
  · rw [o2, mul_one, t3]

/-- C57, scalar multiplication (C31): the repaired ladder computes `k P`, for every point of the five
curves, every representation of it and every scalar. -/
theorem C57_scalar_mult {p : EdwardsExtended Elem} {P : c.Point} (hp : c.Represents p P) {k : Elem}
    (hk : c.fld.Tight k) :
    ∃ r k', Repaired.scalarMult (Repaired.scalar c pr) p k = .ok (r, k') ∧
      c.Represents r ((c.fld.V k % c.fld.p).toNat • P) ∧ c.fld.Canon (c.fld.V k % c.fld.p) k' := by
  obtain ⟨r, k', h1, h2, h3⟩ := Repaired.scalarMult_repr (Repaired.lawful c pr) hk hp
  obtain ⟨s, h4, h5⟩ := Repaired.normalize_ok c.fld pr hk.rep
  have e : (Except.ok k' : Res Elem) = .ok s := h2.symm.trans h4
  cases e
  refine ⟨r, k', h1, ?_, h5⟩
  have e : (c.den k).val = (c.fld.V k % c.fld.p).toNat := by
    have : ((c.den k).val : Int) = c.fld.V k % c.fld.p := by
      rw [Crv.den, ZMod.val_intCast, ← Fld.p_eq]
    omega
  rw [e] at h3
  exact h3

/-- Four times the base point; the points that the repaired code works with exist. -/
example (k : Elem) (hk : c.fld.Canon 4 k) :
    ∃ r k', Repaired.scalarMult (Repaired.scalar c pr) (c.baseCoords 1) k = .ok (r, k') ∧
      c.Represents r ((4 : Nat) • c.base) := by
  obtain ⟨r, k', h1, h2, -⟩ := C57_scalar_mult c pr c.base1 hk.tight
  refine ⟨r, k', h1, ?_⟩
  rw [hk.2.1, Int.emod_eq_of_lt hk.2.2.1 hk.2.2.2] at h2
  exact h2

end
end Verif
