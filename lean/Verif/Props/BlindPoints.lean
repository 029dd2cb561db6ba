import Verif.Props.RarePoints
import Verif.Props.RandUniform
import Mathlib.Data.List.GetD

/-!
# Property C86: compressed points with the exponentiations of the field types and random factors

The client of C85 misses a few points of Curve1174, and the same ones whenever it is asked.  Here the operands of `/` and `sqrt` are
multiplied by a factor, and if the check fails the next factor is tried.  Then there is no `y` for which the decoding fails often: for each
`y` less than one in `2^10` factors are bad, and it is enough that one of the factors is not.  The factors are read from byte strings or
drawn with `rand`.
-/

namespace Verif
open Fld FieldCode Rust

/-- Instructions that make an element from nothing but their arguments. -/
def Op.Source : Op → Prop
  | .bytes _ | .rand _ => True
  | _ => False

theorem Op.Source.facts {f : Fld} {o : Op} (h : o.Source) (ds : List (ZMod f.pN)) : o.powArg = none ∧ o.ideal f ds = o.ideal f [] := by
  cases o <;> first | exact ⟨rfl, rfl⟩ | exact h.elim

/-- One attempt with the factor `u` that an instruction makes.  The registers: `u`, `m u`, `w = n / (m u)`, `q = w u`, `u²`, `q u²`, its root, `x`, the root divided by
`u`, `x²`, `x² m`, `-x`; before them are 0 in register 1, `n` in 6 and `m` in 7. -/
def Client.attempt (sg : Bool) (b : Nat) (o : Op) (k : Client (Option (List Int))) : Client (Option (List Int)) :=
  .step o <| .step (.mul 7 b) <| .step (.div 6 (b + 1)) <| .step (.mul (b + 2) b) <| .step (.square b) <|
  .step (.mul (b + 3) (b + 4)) <| .step (.sqrt (b + 5)) <| .step (.div (b + 6) b) <| .step (.square (b + 7)) <|
  .step (.mul (b + 8) 7) <| .step (.sub 1 (b + 7)) <| .eq (b + 9) 6 fun
    | true => .bit (b + 7) 0 fun bit => .packed (if bit = sg then b + 7 else b + 10) fun out => .done (some out)
    | false => k

/-- Attempts with the factors of a list. -/
def Client.attempts (sg : Bool) : Nat → List Op → Client (Option (List Int))
  | _, [] => .done none
  | b, o :: os => .attempt sg b o (attempts sg (b + 11) os)

/-- From the bytes of `y`, a sign and factors the bytes of the `x` with this lowest bit.  The registers: `y`, 0, `d`, 1, `y²`, `d y²`,
`n = 1 - y²`, `m = 1 - d y²`. -/
def Crv.blindDecode (c : Crv) (ys : List Int) (sg : Bool) (os : List Op) : Client (Option (List Int)) :=
  .step (.bytes ys) <| .step .zero <| .step (.addI 1 c.dInt) <| .step .one <| .step (.square 0) <| .step (.mul 2 4) <|
  .step (.sub 3 4) <| .step (.sub 3 5) <| .eq 6 1 fun
    | true => .packed 1 fun out => .done (some out)
    | false => .attempts sg 8 os

section
variable (c : Crv)

theorem Crv.attempts_uses {os : List Op} (hu : ∀ o ∈ os, o.Valid c.fld) (sg : Bool) :
    ∀ b, (Client.attempts sg b os).Uses c.fld fun _ => True := by
  have hb : 0 < c.fld.L * c.fld.k := by cases c <;> decide
  induction os with
  | nil => exact fun _ => trivial
  | cons o os ih =>
    intro b
    have hy := hu o (List.mem_cons_self ..)
    have := ih (fun o' h => hu o' (List.mem_cons_of_mem _ h)) (b + 11)
    simp only [Client.attempts, Client.attempt, Client.Uses, true_and, hy]
    refine ⟨trivial, trivial, trivial, trivial, trivial, trivial, trivial, trivial, trivial, trivial, fun ok => ?_⟩
    cases ok
    · exact this
    · exact ⟨hb, fun _ _ _ _ _ => trivial⟩

theorem Crv.blindDecode_uses {ys : List Int} (hy : IsBytes ys ∧ c.fld.nbytes ≤ ys.length) (sg : Bool)
    {os : List Op} (hu : ∀ o ∈ os, o.Valid c.fld) :
    (c.blindDecode ys sg os).Uses c.fld fun _ => True := by
  have h : c.fld ≠ .e383_187 := by cases c <;> decide
  have hd : IsI32 c.dInt := by cases c <;> exact ⟨by decide, by decide⟩
  simp only [Crv.blindDecode, Client.Uses, Op.Valid, true_and, hy.1, hy.2, hd]
  refine ⟨fun h' => absurd h' h, fun z => ?_⟩
  cases z
  · exact c.attempts_uses hu sg 8
  · exact fun _ _ _ _ => trivial

/-- The results an attempt can have (helper lemma). -/
theorem Crv.attempt_outcome {S : Finset c.K} {sg : Bool} {b : Nat} {o : Op} {k : Client (Option (List Int))}
    {ds : List c.K} {r : Option (List Int)} {n m : c.K} (hs : o.Source) (hl : ds.length = b) (hb : 8 ≤ b)
    (h1 : ds.getD 1 0 = 0) (h6 : ds.getD 6 0 = n) (h7 : ds.getD 7 0 = m)
    (h : (Client.attempt sg b o k).Outcome c.fld S ds r) :
    ∃ w s x : c.K, let u : c.K := o.ideal c.fld []
      (m * u ∉ S → w = n * (m * u)⁻¹) ∧ (w * u * (u * u) ∉ S → s = c.fld.root (w * u * (u * u))) ∧ (u ∉ S → x = s * u⁻¹) ∧
      if x * x * m = n then r = some (leBytes c.fld.nbytes (if x.val.testBit 0 = sg then x else -x).val) else
        ∃ l : List c.K, l.length = 11 ∧ k.Outcome c.fld S (ds ++ l) r := by
  have lo (l : List c.K) (i : Nat) (hi : i < 8) : (ds ++ l).getD i 0 = ds.getD i 0 := List.getD_append _ _ _ _ (by omega)
  have g1 (l : List c.K) : (ds ++ l).getD 1 0 = 0 := (lo l 1 (by omega)).trans h1
  have g6 (l : List c.K) : (ds ++ l).getD 6 0 = n := (lo l 6 (by omega)).trans h6
  have g7 (l : List c.K) : (ds ++ l).getD 7 0 = m := (lo l 7 (by omega)).trans h7
  have hi (l : List c.K) (i : Nat) : (ds ++ l).getD (b + i) 0 = l.getD i 0 := by
    rw [List.getD_append_right _ _ _ _ (by omega), hl, Nat.add_sub_cancel_left]
  have h0 (l : List c.K) : (ds ++ l).getD b 0 = l.getD 0 0 := hi l 0
  obtain ⟨u, e0, ⟨mu, e1, ⟨w, e2, ⟨q, e3, ⟨uu, e4, ⟨quu, e5, ⟨s, e6, ⟨x, e7, ⟨xx, e8, ⟨t, e9, ⟨v, e10, h⟩⟩⟩⟩⟩⟩⟩⟩⟩⟩⟩ := h
  replace e0 : u = o.ideal c.fld [] := (e0 fun i hi => by rw [(hs.facts ds).1] at hi; cases hi).trans (hs.facts ds).2
  replace e1 := e1 nofun
  replace e3 := e3 nofun
  replace e4 := e4 nofun
  replace e5 := e5 nofun
  replace e8 := e8 nofun
  replace e9 := e9 nofun
  replace e10 := e10 nofun
  simp only [Op.ideal, List.append_assoc, List.nil_append, List.cons_append, g1, g7, hi, h0, List.getD_cons_zero, List.getD_cons_succ]
    at e1 e3 e4 e5 e8 e9 e10
  simp only [Op.powArg, Op.ideal, Option.some.injEq, forall_eq', List.append_assoc, List.nil_append, List.cons_append, g6, hi, h0,
    List.getD_cons_zero, List.getD_cons_succ] at e2 e6 e7
  subst e1 e3 e4 e5 e8 e9 e10
  simp only [Client.Outcome, List.append_assoc, List.nil_append, List.cons_append, g6, hi, List.getD_cons_zero, List.getD_cons_succ] at h
  rw [← e0]
  refine ⟨w, s, x, e2, e6, e7, ?_⟩
  by_cases hx : x * x * m = n
  · rw [if_pos hx]
    rw [decide_eq_true hx] at h
    simp only [Client.Outcome, hi, List.getD_cons_zero, List.getD_cons_succ] at h
    rw [h]
    by_cases hb : x.val.testBit 0 = sg
    · simp only [hb, if_true, hi, List.getD_cons_zero, List.getD_cons_succ]
    · simp only [hb, if_false, hi, List.getD_cons_zero, List.getD_cons_succ, zero_sub]
  · rw [if_neg hx]
    rw [decide_eq_false hx] at h
    exact ⟨_, rfl, h⟩

/-- Factors with which an attempt is right. -/
def Crv.GoodFactor (S : Finset c.K) (n m u : c.K) : Prop :=
  u ≠ 0 ∧ m * u ∉ S ∧ n * m⁻¹ * (u * u) ∉ S ∧ u ∉ S

/-- The results the attempts can have (helper lemma). -/
theorem Crv.attempts_outcome {S : Finset c.K} {sg : Bool} {n m : c.K} (hm : m ≠ 0) {os : List Op} (ho : ∀ o ∈ os, o.Source) :
    ∀ {b : Nat} {ds : List c.K} {r : Option (List Int)}, ds.length = b → 8 ≤ b →
      ds.getD 1 0 = 0 → ds.getD 6 0 = n → ds.getD 7 0 = m → (Client.attempts sg b os).Outcome c.fld S ds r →
      (∃ x : c.K, x * x * m = n ∧ r = some (leBytes c.fld.nbytes (if x.val.testBit 0 = sg then x else -x).val)) ∨
        r = none ∧ (IsSquare (n * m⁻¹) → ∀ o ∈ os, ¬ c.GoodFactor S n m (o.ideal c.fld [])) := by
  induction os with
  | nil => intro b ds r _ _ _ _ _ h; exact .inr ⟨h, fun _ o hu => absurd hu List.not_mem_nil⟩
  | cons o os ih =>
    intro b ds r hl hb h1 h6 h7 h
    obtain ⟨w, s, x, e1, e2, e3, h⟩ := c.attempt_outcome (ho o (List.mem_cons_self ..)) hl hb h1 h6 h7 h
    generalize hu : (o.ideal c.fld [] : c.K) = u at *
    by_cases hx : x * x * m = n
    · rw [if_pos hx] at h
      exact .inl ⟨x, hx, h⟩
    · rw [if_neg hx] at h
      obtain ⟨l, hl', h⟩ := h
      have lo (i : Nat) (hi : i < 8) : (ds ++ l).getD i 0 = ds.getD i 0 := List.getD_append _ _ _ _ (by omega)
      rcases ih (fun o' h => ho o' (List.mem_cons_of_mem _ h)) (by rw [List.length_append, hl, hl']) (by omega) ((lo 1 (by omega)).trans h1) ((lo 6 (by omega)).trans h6)
        ((lo 7 (by omega)).trans h7) h with g | ⟨g1, g2⟩
      · exact .inl g
      · refine .inr ⟨g1, fun hs o' hus => ?_⟩
        rcases List.mem_cons.mp hus with rfl | hus
        · rw [hu]
          rintro ⟨u0, k1, k2, k3⟩
          refine hx ?_
          have ew := e1 k1
          have eq : w * u = n * m⁻¹ := by rw [ew, mul_inv, mul_assoc, mul_assoc, inv_mul_cancel₀ u0, mul_one]
          rw [eq] at e2
          have es := e2 k2
          have ex := e3 k3
          have hq : IsSquare (n * m⁻¹ * (u * u)) := hs.mul ⟨u, rfl⟩
          have hr := (C45_root c.fld (x := n * m⁻¹ * (u * u)) hq).1
          rw [← es] at hr
          have : x * x = n * m⁻¹ := by
            rw [ex, mul_mul_mul_comm, hr, mul_assoc, ← mul_inv, mul_inv_cancel₀ (mul_ne_zero u0 u0), mul_one]
          rw [this, inv_mul_cancel_right₀ hm]
        · exact g2 hs o' hus

/-- The results the client can have (helper lemma). -/
theorem Crv.blindDecode_outcome {S : Finset c.K} {ys : List Int} {sg : Bool} {os : List Op} {r : Option (List Int)}
    (ho : ∀ o ∈ os, o.Source) (h : (c.blindDecode ys sg os).Outcome c.fld S [] r) :
    let y := c.received ys
    (∃ x : c.K, x * x * (1 - c.d * (y * y)) = 1 - y * y ∧
      r = some (leBytes c.fld.nbytes (if x.val.testBit 0 = sg then x else -x).val)) ∨
    r = none ∧ 1 - y * y ≠ 0 ∧ (IsSquare ((1 - y * y) * (1 - c.d * (y * y))⁻¹) → ∀ o ∈ os,
      ¬ c.GoodFactor S (1 - y * y) (1 - c.d * (y * y)) (o.ideal c.fld [])) := by
  obtain ⟨y, e0, ⟨z, e1, ⟨d, e2, ⟨o, e3, ⟨yy, e4, ⟨dyy, e5, ⟨n, e6, ⟨m, e7, h⟩⟩⟩⟩⟩⟩⟩⟩ := h
  replace e0 : y = c.received ys := e0 nofun
  replace e1 := e1 nofun
  replace e2 := e2 nofun
  replace e3 := e3 nofun
  replace e4 := e4 nofun
  replace e5 := e5 nofun
  replace e6 := e6 nofun
  replace e7 := e7 nofun
  simp only [Op.ideal, List.nil_append, List.cons_append, List.getD_cons_zero, List.getD_cons_succ] at e1 e2 e3 e4 e5 e6 e7
  subst e1 e2 e3 e4 e5 e6 e7
  have hd : (0 : c.K) + ((c.dInt : Int) : c.K) = c.d := zero_add _
  rw [← e0]
  simp only [Client.Outcome, List.nil_append, List.cons_append, List.getD_cons_zero, List.getD_cons_succ] at h
  rw [hd] at h
  show _ ∨ _
  by_cases hn : 1 - y * y = 0
  · left
    rw [decide_eq_true hn] at h
    refine ⟨0, by rw [zero_mul, zero_mul, hn], ?_⟩
    rw [neg_zero, ite_self]
    exact h
  · rw [decide_eq_false hn] at h
    replace h : (Client.attempts sg 8 os).Outcome c.fld S [y, 0, c.d, 1, y * y, c.d * (y * y), 1 - y * y, 1 - c.d * (y * y)] r := h
    rcases c.attempts_outcome (c.den_ne y) ho (b := 8) (ds := [y, 0, c.d, 1, y * y, c.d * (y * y), 1 - y * y, 1 - c.d * (y * y)]) (S := S)
      (n := 1 - y * y) rfl (le_refl 8) rfl rfl rfl h with g | ⟨g1, g2⟩
    · exact .inl g
    · exact .inr ⟨g1, hn, g2⟩

/-- C86: whatever is received and whatever the factors, the client returns in all builds the same, and never anything but the `x` of the
point of the curve with this `y` and sign. -/
theorem C86_sound {ys : List Int} (hy : IsBytes ys ∧ c.fld.nbytes ≤ ys.length) (sg : Bool) {os : List Op}
    (ho : ∀ o ∈ os, o.Source ∧ o.Valid c.fld) :
    ∃ r, (∀ w, (c.blindDecode ys sg os).text (src c.fld) w 12 c.fld true = .ok r) ∧
      ∀ out, r = some out → ∃ P : c.Point, P.y = c.received ys ∧ (P.x.val.testBit 0 = sg ∨ P.x = 0) ∧
        out = leBytes c.fld.nbytes P.x.val := by
  obtain ⟨r, h1, h2⟩ := Client.text_outcome c.fld _ (c.blindDecode_uses hy sg fun o h => (ho o h).2)
  refine ⟨r, h1, fun out hr => ?_⟩
  rcases c.blindDecode_outcome (fun o h => (ho o h).1) h2 with ⟨x, h3, h4⟩ | ⟨h3, -⟩
  · obtain ⟨P, p1, p2, p3⟩ := c.signed_on sg h3
    rw [hr] at h4
    exact ⟨P, p2, p3, by rw [p1]; exact Option.some.inj h4⟩
  · rw [h3] at hr; cases hr

/-- All points with this `y` are found, and other strings rejected, with these factors. -/
def Crv.FindsRight (y : c.K) (os : List Op) : Prop := ∀ (sg : Bool) (w : World),
  (∀ P : c.Point, P.y = y → (P.x.val.testBit 0 = sg ∨ P.x = 0) →
    (c.blindDecode (leBytes c.fld.nbytes y.val) sg os).text (src c.fld) w 12 c.fld true = .ok (some (leBytes c.fld.nbytes P.x.val))) ∧
  ((¬ ∃ P : c.Point, P.y = y) → (c.blindDecode (leBytes c.fld.nbytes y.val) sg os).text (src c.fld) w 12 c.fld true = .ok none)

/-- The instruction that makes `u` from bytes. -/
def Crv.factor (u : c.K) : Op := .bytes (leBytes c.fld.nbytes u.val)

theorem Crv.factor_ok (u : c.K) : (c.factor u).Source ∧ (c.factor u).Valid c.fld ∧ (c.factor u).ideal c.fld [] = u := by
  have h : c.fld ≠ .e383_187 := by cases c <;> decide
  exact ⟨trivial, ⟨(c.bytes_ok u).1, (c.bytes_ok u).2, fun h' => absurd h' h⟩, Crv.coord_leBytes c _⟩

theorem Crv.finds_of_good {y : c.K} {os : List Op} (ho : ∀ o ∈ os, o.Source ∧ o.Valid c.fld)
    (h : 1 - y * y ≠ 0 → ∃ o ∈ os, c.GoodFactor c.fld.rareSet (1 - y * y) (1 - c.d * (y * y)) (o.ideal c.fld [])) : c.FindsRight y os := by
  intro sg w
  have hr (y : c.K) : c.received (leBytes c.fld.nbytes y.val) = y := Crv.coord_leBytes c _
  obtain ⟨r, g1, g2⟩ := Client.text_outcome c.fld _ (c.blindDecode_uses (c.bytes_ok y) sg fun o h => (ho o h).2)
  have g3 := c.blindDecode_outcome (fun o h => (ho o h).1) g2
  rw [hr] at g3
  rw [g1]
  have hd := c.den_ne y
  refine ⟨fun P py px => ?_, fun hn => ?_⟩
  · rcases g3 with ⟨x, e1, e2⟩ | ⟨-, e1, e2⟩
    · obtain ⟨Q, q1, q2, q3⟩ := c.signed_on sg e1
      rw [e2, ← q1, c.signed_unique (q2.trans py.symm) q3 px]
    · have e : (1 - y * y) * (1 - c.d * (y * y))⁻¹ = P.x * P.x := by
        rw [mul_inv_eq_iff_eq_mul₀ hd, ← py]
        linear_combination -P.on
      obtain ⟨u, hu, hg⟩ := h e1
      exact absurd hg (e2 ⟨P.x, e⟩ u hu)
  · rcases g3 with ⟨x, e1, -⟩ | ⟨e1, -⟩
    · obtain ⟨Q, -, q2, -⟩ := c.signed_on sg e1
      exact absurd ⟨Q, q2⟩ hn
    · rw [e1]

theorem few_factors {s p : Nat} (h : s * 2 ^ 13 < p) (h' : 2 ^ 11 < p) : (s + 2 * s + s).succ * 2 ^ 10 < p := by
  rw [Nat.succ_eq_add_one]
  linarith

open Classical in
/-- C86: for each `y` there are less than one in `2^10` bad factors; the decoding is right for `y` if one factor is not among them. -/
theorem C86_decode (y : c.K) : ∃ B : Finset c.K, B.card * 2 ^ 10 < c.fld.pN ∧
    ∀ os : List Op, (∀ o ∈ os, o.Source ∧ o.Valid c.fld) → (∃ o ∈ os, o.ideal c.fld [] ∉ B) → c.FindsRight y os := by
  by_cases hn : 1 - y * y = 0
  · refine ⟨∅, ?_, fun os ho _ => c.finds_of_good ho fun h => absurd hn h⟩
    rw [Finset.card_empty, Nat.zero_mul]
    have := c.fld.pN_facts.1
    omega
  · have hd := c.den_ne y
    generalize hm : 1 - c.d * (y * y) = m at *
    generalize hn' : 1 - y * y = n at *
    have hq : n * m⁻¹ ≠ 0 := mul_ne_zero hn (inv_ne_zero hd)
    have k1 : (Finset.univ.filter fun u : c.K => m * u ∈ c.fld.rareSet).card ≤ c.fld.rareSet.card :=
      Finset.card_le_card_of_injOn (m * ·) (fun u hu => (Finset.mem_filter.mp hu).2) fun u _ v _ h => mul_left_cancel₀ hd h
    have k2 := card_fibre c.fld.rareSet (fun u : c.K => n * m⁻¹ * (u * u)) fun u v h =>
      mul_self_eq_mul_self_iff.1 (mul_left_cancel₀ hq h)
    refine ⟨insert 0 ((Finset.univ.filter fun u : c.K => m * u ∈ c.fld.rareSet) ∪
      (Finset.univ.filter fun u : c.K => n * m⁻¹ * (u * u) ∈ c.fld.rareSet) ∪ c.fld.rareSet), ?_, fun os ho ⟨u, hu, hB⟩ =>
        c.finds_of_good ho fun _ => ⟨u, hu, ?_⟩⟩
    · have k3 := Finset.card_insert_le (0 : c.K) ((Finset.univ.filter fun u : c.K => m * u ∈ c.fld.rareSet) ∪
        (Finset.univ.filter fun u : c.K => n * m⁻¹ * (u * u) ∈ c.fld.rareSet) ∪ c.fld.rareSet)
      have k4 := Finset.card_union_le ((Finset.univ.filter fun u : c.K => m * u ∈ c.fld.rareSet) ∪
        (Finset.univ.filter fun u : c.K => n * m⁻¹ * (u * u) ∈ c.fld.rareSet)) c.fld.rareSet
      have k5 := Finset.card_union_le (Finset.univ.filter fun u : c.K => m * u ∈ c.fld.rareSet)
        (Finset.univ.filter fun u : c.K => n * m⁻¹ * (u * u) ∈ c.fld.rareSet)
      have k6 := c.fld.rareSet_card
      have k7 : 2 ^ 11 < c.fld.pN := by cases c <;> decide +kernel
      refine (Nat.mul_le_mul_right _ (k3.trans (Nat.succ_le_succ (k4.trans (Nat.add_le_add_right (k5.trans (Nat.add_le_add k1 k2)) _))))).trans_lt ?_
      exact few_factors k6 k7
    · simp only [Finset.mem_insert, Finset.mem_union, Finset.mem_filter, Finset.mem_univ, true_and, not_or] at hB
      rw [hm, hn']
      exact ⟨hB.1, hB.2.1.1, hB.2.1.2, hB.2.2⟩

/-- Bad tuples of factors (helper lemma). -/
theorem Crv.bad_tuples (y : c.K) (k : Nat) {Ω : Type} (o : Ω → Op) (ho : ∀ ω, (o ω).Source ∧ (o ω).Valid c.fld)
    (hi : Function.Injective fun ω => ((o ω).ideal c.fld [] : c.K)) :
    Nat.card {us : Fin k → Ω // ¬ c.FindsRight y (List.ofFn fun i => o (us i))} * (2 ^ 10) ^ k ≤ c.fld.pN ^ k := by
  obtain ⟨B, h1, h2⟩ := C86_decode c y
  have h3 : Nat.card {us : Fin k → Ω // ¬ c.FindsRight y (List.ofFn fun i => o (us i))} ≤ Nat.card (Fin k → B) := by
    refine Nat.card_le_card_of_injective (fun us i => ⟨(o (us.1 i)).ideal c.fld [], ?_⟩) fun us vs h => ?_
    · by_contra hi
      exact us.2 (h2 _ (fun o' ho' => by obtain ⟨j, rfl⟩ := List.mem_ofFn.mp ho'; exact ho _) ⟨_, List.mem_ofFn.mpr ⟨i, rfl⟩, hi⟩)
    · refine Subtype.ext (funext fun i => hi ?_)
      exact congrArg Subtype.val (congrFun h i)
  rw [Nat.card_fun, Nat.card_fin, Nat.card_eq_fintype_card (α := B), Fintype.card_coe] at h3
  refine (Nat.mul_le_mul_right _ h3).trans ?_
  rw [← Nat.mul_pow]
  exact Nat.pow_le_pow_left h1.le k

/-- C86: among the tuples of `k` factors there are at most one in `2^(10 k)` with which the decoding is wrong for `y`. -/
theorem C86_tuples (y : c.K) (k : Nat) :
    Nat.card {us : Fin k → c.K // ¬ c.FindsRight y (List.ofFn fun i => c.factor (us i))} * (2 ^ 10) ^ k ≤ c.fld.pN ^ k :=
  c.bad_tuples y k c.factor (fun u => ⟨(c.factor_ok u).1, (c.factor_ok u).2.1⟩) fun u v h => by
    have h : ((c.factor u).ideal c.fld [] : c.K) = (c.factor v).ideal c.fld [] := h
    rwa [(c.factor_ok u).2.2, (c.factor_ok v).2.2] at h

/-- C86: if the `k` factors are drawn with `rand`, the decoding is wrong for `y` with probability at most `1 / 2^(9 k)`. -/
theorem C86_random (y : c.K) (k : Nat) :
    prob (fun ω : Fin k → Answers c.fld => ¬ c.FindsRight y (List.ofFn fun i => .rand (ω i).rng)) ≤ 1 / (2 ^ 9) ^ k := by
  have h := c.bad_tuples y k (fun ω : Answers c.fld => .rand ω.rng) (fun ω => ⟨trivial, ω.isRng⟩) (Answers.drawn_injective c.fld)
  have hN : c.fld.pN ≤ 2 * Nat.card (Answers c.fld) := by
    have h1 : c.fld.p ≤ 2 * c.fld.code.MODULUS.prod := by cases c <;> decide +kernel
    rw [← Answers.card, p_eq] at h1
    exact_mod_cast h1
  have hp : 0 < c.fld.pN := by have := c.fld.pN_facts.1; omega
  rw [prob, Nat.card_fun, Nat.card_fin, div_le_div_iff₀ (by exact_mod_cast Nat.pow_pos (by omega)) (by positivity), one_mul]
  generalize Nat.card {us : Fin k → Answers c.fld // ¬ c.FindsRight y (List.ofFn fun i => .rand (us i).rng)} = n at *
  have h2 : n * (2 ^ 9) ^ k * 2 ^ k ≤ Nat.card (Answers c.fld) ^ k * 2 ^ k := by
    refine le_trans (le_of_eq ?_) (h.trans ((Nat.pow_le_pow_left hN k).trans (le_of_eq ?_)))
    · rw [mul_assoc, ← Nat.mul_pow]; rfl
    · rw [Nat.mul_pow, mul_comm]
  exact_mod_cast Nat.le_of_mul_le_mul_right h2 (by positivity)

end

/-! ### A client misses a point when `sqrt` is wrong -/

/-- In a run in `ℤ / p` of instructions no element of the set is raised to a power. -/
def OpsAvoid (f : Fld) : List (ZMod f.pN) → List Op → Prop
  | _, [] => True
  | ds, o :: os => (∀ i, o.powArg = some i → ds.getD i 0 ∉ f.rareSet) ∧ OpsAvoid f (ds ++ [o.ideal f ds]) os

/-- The run of the code of such instructions (helper lemma). -/
theorem run_ops (f : Fld) {os : List Op} : ∀ {ds : List (ZMod f.pN)} {rs : List Elem}, (∀ o ∈ os, o.Valid f) → OpsAvoid f ds os →
    List.Forall₂ f.Of ds rs → ∃ rs', List.Forall₂ f.Of (opsRun f ds os) rs' ∧
      ∀ {α : Type} (k : Client α) (pr : Profile), (Client.ops os k).run f pr true rs = k.run f pr true rs' := by
  induction os with
  | nil => intro ds rs _ _ h; exact ⟨rs, h, fun _ _ => rfl⟩
  | cons o os ih =>
    intro ds rs hv ha h
    obtain ⟨x, y, d, h1, h2, h3⟩ := op_step f o (hv o (List.mem_cons_self ..)) (forall₂_getD of_zero h)
    obtain rfl := h3 fun i hi hf hR => ha.1 i hi (mem_rareSet.mpr ⟨hf, hR⟩)
    obtain ⟨rs', h4, h5⟩ := ih (fun o' ho => hv o' (List.mem_cons_of_mem _ ho)) ha.2 (forall₂_snoc h h2)
    exact ⟨rs', h4, fun k pr => (Client.run_step _ (h1 pr)).trans (h5 k pr)⟩

/-- If the division is right and the root is wrong, nothing is found (helper lemma). -/
theorem Crv.quickDecode_misses (c : Crv) {y d1 : c.K} {a x y1 : Elem} (hm : 1 - c.d * (y * y) ∉ c.fld.rareSet)
    (ha : c.fld.Of ((1 - y * y) * (1 - c.d * (y * y))⁻¹) a)
    (h1 : ∀ pr, c.fld.code.sqrt pr a = .ok x ∧ c.fld.code.normalize pr x = .ok y1) (h2 : c.fld.Of d1 y1)
    (h3 : d1 * d1 ≠ (1 - y * y) * (1 - c.d * (y * y))⁻¹) (sg : Bool) (w : World) :
    (c.quickDecode (leBytes c.fld.nbytes y.val) sg).text (src c.fld) w 12 c.fld true = .ok none := by
  let os : List Op := [.bytes (leBytes c.fld.nbytes y.val), .zero, .addI 1 c.dInt, .one, .square 0, .mul 2 4, .sub 3 4, .sub 3 5, .div 6 7]
  let k : Client (Option (List Int)) := .step (.square 9) <| .step (.mul 10 7) <|
    .step (.sub 1 9) <| .eq 11 6 fun q => .bit 9 0 fun b => .packed (if b = sg then 9 else 12) fun out =>
    .done (if q then some out else none)
  have e : c.quickDecode (leBytes c.fld.nbytes y.val) sg = Client.ops os (.step (.sqrt 8) k) := rfl
  have hu := c.quickDecode_uses (c.bytes_ok y) sg
  have hv : ∀ o ∈ os, o.Valid c.fld := by
    rw [e] at hu
    obtain ⟨-, v0, -, v1, -, v2, -, v3, -, v4, -, v5, -, v6, -, v7, -, v8, -⟩ := hu
    simp only [os, List.forall_mem_cons, v0, v1, v2, v3, v4, v5, v6, v7, v8, true_and]
    exact fun o ho => absurd ho List.not_mem_nil
  have hk : k.Uses c.fld fun _ => True := by
    rw [e] at hu
    exact hu.2.2.2.2.2.2.2.2.2.2.2.2.2.2.2.2.2.2.2.2
  have hy : (Op.bytes (leBytes c.fld.nbytes y.val)).ideal c.fld [] = y := Crv.coord_leBytes c _
  have hd : (0 : c.K) + ((c.dInt : Int) : c.K) = c.d := zero_add _
  have ho : opsRun c.fld [] os = [y, 0, c.d, 1, y * y, c.d * (y * y), 1 - y * y, 1 - c.d * (y * y),
      (1 - y * y) * (1 - c.d * (y * y))⁻¹] := by
    simp only [os, opsRun, List.foldl_cons, List.foldl_nil, hy]
    simp only [Op.ideal, List.nil_append, List.cons_append, List.getD_cons_zero, List.getD_cons_succ, hd]
  have hav : OpsAvoid c.fld [] os := by
    refine ⟨nofun, nofun, nofun, nofun, nofun, nofun, nofun, nofun, ?_, trivial⟩
    intro i hi
    cases hi
    rw [hy]
    simp only [Op.ideal, List.nil_append, List.cons_append, List.getD_cons_zero, List.getD_cons_succ, hd]
    exact hm
  obtain ⟨rs, g1, g2⟩ := run_ops c.fld hv hav .nil
  rw [ho] at g1
  have ea : rs.getD 8 c.fld.code.ZERO = a := C09_canonical_unique c.fld (forall₂_getD of_zero g1 8) ha
  obtain ⟨res, g3, g4⟩ := Client.outcome (f := c.fld) (S := c.fld.rareSet) (fun d hf h => mem_rareSet.mpr ⟨hf, h⟩) k hk (forall₂_snoc g1 h2)
  rw [C59_client_model (has_src _) w (Nat.le_refl 12), e, g2, Client.run_step k (x := x) (y := y1), g3]
  · obtain ⟨xx, e1, t, e2, v, e3, h⟩ := g4
    replace e1 := e1 nofun
    replace e2 := e2 nofun
    replace e3 := e3 nofun
    simp only [Op.ideal, List.nil_append, List.cons_append, List.getD_cons_zero, List.getD_cons_succ] at e1 e2 e3
    subst e1 e2 e3
    simp only [Client.Outcome, List.nil_append, List.cons_append, List.getD_cons_zero, List.getD_cons_succ] at h
    rw [decide_eq_false fun g => h3 (by rw [← g, mul_inv_cancel_right₀ (c.den_ne y)])] at h
    rw [h]
    rfl
  · rw [Op.exec]
    simp only [ea]
    exact h1 w.pr

/-- A wrong root in `Mod_e251_9` (helper lemma). -/
theorem wrong_root {q : ZMod e251_9.pN} {a r s : Elem} (ha : e251_9.Of q a) (h1 : e251_9.code.sqrt .debug a = .ok r)
    (h2 : e251_9.code.squared .debug r = .ok s) (h3 : ¬ e251_9.Denotes s (e251_9.V a)) :
    ∃ x y1 d1, (∀ pr, e251_9.code.sqrt pr a = .ok x ∧ e251_9.code.normalize pr x = .ok y1) ∧ e251_9.Of d1 y1 ∧ d1 * d1 ≠ q := by
  have hr : List.Forall₂ e251_9.Of [q] [a] := .cons ha .nil
  obtain ⟨x1, y1, d1, b1, b2, -⟩ := op_step e251_9 (.sqrt 0) trivial (forall₂_getD of_zero hr)
  simp only [Op.exec, List.getD_cons_zero] at b1
  obtain rfl := ok_unique h1 (b1 .debug).1
  refine ⟨_, y1, d1, b1, b2, fun h => h3 ?_⟩
  obtain ⟨r', g1, g2, g3⟩ := chain_pos exp_results.2.2 (.of_canon ha) .debug (e251_9.code.quarticLegendre .debug)
  obtain rfl := ok_unique h1 g1
  have b4 : d1 = ((e251_9.V r : Int) : ZMod e251_9.pN) := b2.cast.symm.trans (of_pos g2 g3 (b1 .debug).2).cast
  obtain ⟨s', k1, -, k2⟩ := C05_square e251_9 .debug g2
  obtain rfl := ok_unique h2 k1
  refine k2.trans ?_
  rw [modEq_iff, Int.cast_mul, ← b4, h, ha.cast]

/-- A point missed without and found with a factor (helper lemma). -/
theorem missed_of {X Y U : Crv.curve1174.K} {a r s : Elem} (hon : X * X + Y * Y + 1174 * (X * X * (Y * Y)) = 1)
    (hc : e251_9.Canon (e251_9.V a) a) (hV : ((e251_9.V a : Int) : Crv.curve1174.K) = X * X)
    (h1 : e251_9.code.sqrt .debug a = .ok r) (h2 : e251_9.code.squared .debug r = .ok s) (h3 : ¬ e251_9.Denotes s (e251_9.V a))
    (k1 : 1 + 1174 * (Y * Y) ∉ Crv.curve1174.fld.rareSet) (k2 : (1 + 1174 * (Y * Y)) * U ∉ Crv.curve1174.fld.rareSet)
    (k3 : X * X * (U * U) ∉ Crv.curve1174.fld.rareSet) (k4 : U ∉ Crv.curve1174.fld.rareSet) (hU : U ≠ 0) :
    ∃ P : Crv.curve1174.Point,
      (∀ sg w, (Crv.curve1174.quickDecode (leBytes 32 P.y.val) sg).text (src .e251_9) w 12 .e251_9 true = .ok none) ∧
      ∃ u, Crv.curve1174.FindsRight P.y [Crv.curve1174.factor u] := by
  have hd : Crv.curve1174.d = -1174 := by
    show (((-1174 : Int)) : Crv.curve1174.K) = _
    push_cast; rfl
  have hn := Crv.curve1174.den_ne Y
  have e1 : 1 + 1174 * (Y * Y) = 1 - Crv.curve1174.d * (Y * Y) := by rw [hd]; ring
  have e2 : X * X = (1 - Y * Y) * (1 - Crv.curve1174.d * (Y * Y))⁻¹ := by
    rw [eq_mul_inv_iff_mul_eq₀ hn, ← e1]
    linear_combination hon
  rw [e1] at k1 k2
  rw [e2] at k3
  have ho : e251_9.Of (((1 - Y * Y) * (1 - Crv.curve1174.d * (Y * Y))⁻¹ : Crv.curve1174.K)) a := by
    rw [← e2, ← hV]
    refine .of_emod ?_
    rwa [Int.emod_eq_of_lt hc.2.2.1 hc.2.2.2]
  obtain ⟨x, y1, d1, g1, g2, g3⟩ := wrong_root ho h1 h2 h3
  refine ⟨⟨X, Y, ?_⟩, fun sg w => Crv.quickDecode_misses Crv.curve1174 k1 ho g1 g2 g3 sg w, U,
    Crv.finds_of_good _ (fun o h => ?_) fun _ => ⟨_, List.mem_cons_self .., ?_⟩⟩
  · rw [hd]
    linear_combination hon
  · obtain rfl := List.mem_singleton.mp h
    exact ⟨(Crv.curve1174.factor_ok U).1, (Crv.curve1174.factor_ok U).2.1⟩
  · rw [(Crv.curve1174.factor_ok U).2.2]
    exact ⟨hU, k2, k3, k4⟩

/-- A point of Curve1174 whose `x²` has a wrong root in `Mod_e251_9`, the words of `x²`, and a factor. -/
def missedX : Nat := 0x5e0ae25a585af759f276094ac7270b79c5fea07143c13752cd71c8abeca6861
def missedY : Nat := 0x5b0e65cc8ff0cac3d2597399cc02f385290ae468f9556db8ac2136076d113f
def missedSquare : Elem := [65233413245699360, 38864417166140279, 31025398866253038, 13901320576054622, 86263768]
def missedFactor : Nat := 0x35db50cf1446beab0c11fdecb91ce375bc8fbbcbde5c0994164d8399f767c45

set_option maxRecDepth 100000 in
theorem missed_root : e251_9.Canon (e251_9.V missedSquare) missedSquare ∧ ∃ r s, e251_9.code.sqrt .debug missedSquare = .ok r ∧
    e251_9.code.squared .debug r = .ok s ∧ ¬ e251_9.Denotes s (e251_9.V missedSquare) := by
  have hc : e251_9.Canon (e251_9.V missedSquare) missedSquare := by
    apply canon_of_canonB; decide +kernel
  refine ⟨hc, ?_⟩
  have h1 : (e251_9.intRun (fun _ => none) e251_9.code.sqrtC (e251_9.V missedSquare)).isSome = true := by
    decide +kernel
  obtain ⟨y, hy⟩ := Option.isSome_iff_exists.mp h1
  have h2 : (match e251_9.intRun (fun _ => none) e251_9.code.sqrtC (e251_9.V missedSquare) with
      | some y => decide (y * y % e251_9.p = e251_9.V missedSquare % e251_9.p)
      | none => true) = false := by decide +kernel
  rw [hy] at h2
  have h2 := of_decide_eq_false h2
  obtain ⟨r, h3, h4, h5⟩ := intRun_sound' .debug (q := e251_9.code.quarticLegendre .debug) hc.tight hy
  obtain ⟨s, h6, -, h7⟩ := C05_square e251_9 .debug h4
  refine ⟨r, s, h3, h6, fun h => h2 ?_⟩
  rw [← h5]
  exact h7.symm.trans h

set_option maxRecDepth 100000 in
theorem missed_numbers : (missedX * missedX + missedY * missedY + 1174 * (missedX * missedX * (missedY * missedY))) % e251_9.pN = 1 % e251_9.pN ∧
    (e251_9.V missedSquare - missedX * missedX) % e251_9.p = 0 ∧ missedFactor % e251_9.pN ≠ 0 ∧
    mildSquares 250 (1 + 1174 * (missedY * missedY)) = true ∧ mildSquares 250 ((1 + 1174 * (missedY * missedY)) * missedFactor) = true ∧
    mildSquares 250 (missedX * missedX * (missedFactor * missedFactor)) = true ∧ mildSquares 250 missedFactor = true := by
  decide +kernel

/-- C86: the client of C85 does miss a point of Curve1174, in all builds; a factor with which it is found. -/
theorem C86_missed : ∃ P : Crv.curve1174.Point,
    (∀ sg w, (Crv.curve1174.quickDecode (leBytes 32 P.y.val) sg).text (src .e251_9) w 12 .e251_9 true = .ok none) ∧
    ∃ u, Crv.curve1174.FindsRight P.y [Crv.curve1174.factor u] := by
  obtain ⟨hc, r, s, r1, r2, r3⟩ := missed_root
  obtain ⟨n1, n2, n3, n4, n5, n6, n7⟩ := missed_numbers
  have key : ∀ (r : Nat) (d : Crv.curve1174.K), mildSquares 250 r = true → (r : Crv.curve1174.K) = d → d ∉ Crv.curve1174.fld.rareSet :=
    fun r d => not_mem_of_mild
  have m1 : ((missedX * missedX + missedY * missedY + 1174 * (missedX * missedX * (missedY * missedY)) : Nat) : Crv.curve1174.K) = ((1 : Nat) : Crv.curve1174.K) :=
    (ZMod.natCast_eq_natCast_iff _ _ _).2 n1
  have m2 : ((e251_9.V missedSquare : Int) : Crv.curve1174.K) = ((missedX * missedX : Nat) : Crv.curve1174.K) := by
    have : ((e251_9.V missedSquare : Int) : ZMod e251_9.pN) = ((missedX * missedX : Int) : ZMod e251_9.pN) := by
      rw [← modEq_iff]
      exact (Int.modEq_iff_dvd.mpr (Int.dvd_of_emod_eq_zero n2)).symm
    refine Eq.trans this ?_
    push_cast
    rfl
  have m3 : ((missedFactor : Nat) : Crv.curve1174.K) ≠ 0 := fun h => n3 (Nat.mod_eq_zero_of_dvd ((ZMod.natCast_eq_zero_iff _ _).mp h))
  rw [Nat.cast_mul] at m2
  have k1 := key _ (1 + 1174 * ((missedY : Crv.curve1174.K) * missedY)) n4 (by push_cast; rfl)
  have k2 := key _ ((1 + 1174 * ((missedY : Crv.curve1174.K) * missedY)) * missedFactor) n5 (by push_cast; rfl)
  have k3 := key _ ((missedX : Crv.curve1174.K) * missedX * (missedFactor * missedFactor)) n6 (by push_cast; rfl)
  have k4 := key _ (missedFactor : Crv.curve1174.K) n7 rfl
  exact missed_of (by push_cast at m1; exact m1) hc m2 r1 r2 r3 k1 k2 k3 k4 m3

/-! ### Cases -/

/-- Strings that are longer than needed, unused bits that are set, and two factors, one drawn, the other 0. -/
example (w : World) (rng : Nat → Int → Int) (hr : IsRng rng) :
    ∃ r, (Crv.blindDecode .curve1174 (List.replicate 40 255) true [.rand rng, .bytes (List.replicate 32 0)]).text
      (src .e251_9) w 12 .e251_9 true = .ok r := by
  obtain ⟨r, h, -⟩ := C86_sound .curve1174 (ys := List.replicate 40 255) ⟨by simp [IsBytes], by decide⟩ true
    (os := [.rand rng, .bytes (List.replicate 32 0)]) (by
      intro o h
      rcases List.mem_cons.mp h with rfl | h
      · exact ⟨trivial, hr⟩
      · obtain rfl := List.mem_singleton.mp h
        exact ⟨trivial, by simp [IsBytes], by decide, nofun⟩)
  exact ⟨r, h w⟩

/-- Every point of every curve is found with some factor. -/
example (c : Crv) (P : c.Point) : ∃ u : c.K, ∀ w,
    (c.blindDecode (leBytes c.fld.nbytes P.y.val) (P.x.val.testBit 0) [c.factor u]).text (src c.fld) w 12 c.fld true =
      .ok (some (leBytes c.fld.nbytes P.x.val)) := by
  obtain ⟨B, h1, h2⟩ := C86_decode c P.y
  have h3 : B.card < Fintype.card c.K := by
    rw [ZMod.card]
    exact lt_of_le_of_lt (Nat.le_mul_of_pos_right _ (by positivity)) h1
  obtain ⟨u, -, hu⟩ := Finset.exists_mem_notMem_of_card_lt_card (s := B) (t := Finset.univ) (by rwa [Finset.card_univ])
  obtain ⟨f1, f2, f3⟩ := c.factor_ok u
  refine ⟨u, fun w => ((h2 [c.factor u] (fun o h => ?_) ⟨_, List.mem_cons_self .., by rwa [f3]⟩) _ w).1 P rfl (.inl rfl)⟩
  obtain rfl := List.mem_singleton.mp h
  exact ⟨f1, f2⟩

/-- Ten factors: at most one tuple in `2^100` is bad. -/
example (y : Crv.curve1174.K) :
    Nat.card {us : Fin 10 → Crv.curve1174.K // ¬ Crv.curve1174.FindsRight y (List.ofFn fun i => Crv.curve1174.factor (us i))} * 2 ^ 100 ≤
      e251_9.pN ^ 10 := by
  have h := C86_tuples .curve1174 y 10
  rwa [← Nat.pow_mul] at h

/-- Fourteen factors drawn with `rand`. -/
example (y : Crv.curve1174.K) :
    prob (fun ω : Fin 14 → Answers e251_9 => ¬ Crv.curve1174.FindsRight y (List.ofFn fun i => .rand (ω i).rng)) ≤ 1 / 2 ^ 126 := by
  have h := C86_random .curve1174 y 14
  rwa [← pow_mul] at h

end Verif
