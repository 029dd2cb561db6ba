import Verif.Curve.XZ
import Verif.Props.Clients

/-!
# A program for first coordinates on Montgomery curves (definitions and helper lemmas)

`/repo/README.md` lists Curve25519, M-221, M-383, Curve383187 and M-511, and the field files export their constants, but the files for
these curves are empty.  Here is the program a client of the field types would write: X25519 (RFC 7748) for any of the five curves.
-/

namespace Verif
open Fld FieldCode

/-- Instructions one after the other. -/
def Client.ops {α : Type} (os : List Op) (k : Client α) : Client α := os.foldr .step k

/-- The bits of a scalar, highest first. -/
def scalarBits (s : List Int) : List Bool :=
  s.reverse.flatMap fun b => (List.range 8).reverse.map b.toNat.testBit

/-- A round: from the registers `i`, `j` and `i'`, `j'` to `n + 22`, …, `n + 25`.  The sum of the two points is in `n + 3`, `n + 8`, the
double of the second if the bit is set, else of the first, in `n + 15`, `n + 21`.  The bit occurs in selections only. -/
def ladderRound (b : Bool) (n i j i' j' : Nat) : List Op :=
  [.mul i i', .mul j j', .sub n (n + 1), .square (n + 2),
   .mul i j', .mul j i', .sub (n + 4) (n + 5), .square (n + 6), .mul 0 (n + 7),
   .select b i' i, .select b j' j,
   .square (n + 9), .square (n + 10), .mul (n + 9) (n + 10), .sub (n + 11) (n + 12), .square (n + 14),
   .mul 2 (n + 13), .add (n + 11) (n + 12), .add (n + 17) (n + 16), .add (n + 13) (n + 13), .add (n + 19) (n + 19),
   .mul (n + 20) (n + 18),
   .select b (n + 3) (n + 15), .select b (n + 8) (n + 21), .select b (n + 15) (n + 3), .select b (n + 21) (n + 8)]

/-- The rounds of the ladder, and the division at the end. -/
def ladderRounds : List Bool → Nat → Nat → Nat → Nat → Nat → Client (List Int)
  | [], n, i, j, _, _ => .step (.div i j) <| .packed n .done
  | b :: l, n, i, j, i', j' => Client.ops (ladderRound b n i j i' j') <|
    ladderRounds l (n + 26) (n + 22) (n + 23) (n + 24) (n + 25)

/-- The whole program: registers `0` (the coordinate), `1` (`ZERO`), `2` (`A`) and `3` (`ONE`). -/
def Mont.program (c : Mont) (s us : List Int) : Client (List Int) :=
  .step (.bytes us) <| .step .zero <| .step (.addI 1 c.A) <| .step .one <|
    ladderRounds (scalarBits s) 4 3 1 0 3

/-! ### Helper lemmas -/

private theorem get_new {K : Type} [Zero K] (ds l : List K) (i : Nat) : (ds ++ l).getD (ds.length + i) 0 = l.getD i 0 := by
  simp [List.getD_eq_getElem?_getD, List.getElem?_append_right]

private theorem get_new0 {K : Type} [Zero K] (ds l : List K) : (ds ++ l).getD ds.length 0 = l.getD 0 0 := get_new ds l 0

private theorem get_old {K : Type} [Zero K] (ds l : List K) {i : Nat} (h : i < ds.length) : (ds ++ l).getD i 0 = ds.getD i 0 := by
  simp [List.getD_eq_getElem?_getD, List.getElem?_append_left h]

theorem ideal_rounds (f : Fld) (A u : ZMod f.pN) : ∀ (l : List Bool) (ds : List (ZMod f.pN)) {n i j i' j' : Nat}, ds.length = n →
    i < n → j < n → i' < n → j' < n → 2 < n → ds.getD 0 0 = u → ds.getD 2 0 = A →
    (ladderRounds l n i j i' j').ideal f ds = leBytes f.nbytes
      ((XZ.ladder A u l (ds.getD i 0) (ds.getD j 0) (ds.getD i' 0) (ds.getD j' 0)).1 *
       (XZ.ladder A u l (ds.getD i 0) (ds.getD j 0) (ds.getD i' 0) (ds.getD j' 0)).2⁻¹).val
  | [], ds, n, i, j, i', j', hn, hi, hj, hi', hj', h2, h0, hA => by
    subst hn
    simp only [ladderRounds, Client.ideal, XZ.ladder, Op.ideal, get_new0, List.getD_cons_zero]
  | b :: l, ds, n, i, j, i', j', hn, hi, hj, hi', hj', h2, h0, hA => by
    subst hn
    have h0' : 0 < ds.length := by omega
    have four (a : ZMod f.pN) : a + a + (a + a) = 4 * a := by ring
    cases b <;>
    · simp only [ladderRounds, ladderRound, Client.ops, List.foldr_cons, List.foldr_nil, Client.ideal, Bool.false_eq_true, if_false, if_true,
        Op.ideal, List.append_assoc, List.cons_append, List.nil_append, get_new, get_new0, get_old _ _ hi, get_old _ _ hj, get_old _ _ hi',
        get_old _ _ hj', get_old _ _ h2, get_old _ _ h0', List.getD_cons_zero, List.getD_cons_succ, h0, hA]
      rw [ideal_rounds f A u l _ (by simp) (by omega) (by omega) (by omega) (by omega) (by omega)
        (by rw [get_old _ _ h0', h0]) (by rw [get_old _ _ h2, hA])]
      simp only [get_new, List.getD_cons_zero, List.getD_cons_succ, XZ.ladder, Bool.false_eq_true, if_false, if_true, four]

theorem Mont.ideal_program (c : Mont) (s us : List Int) (u : c.K) (hu : ((leVal (us.take c.fld.nbytes) % 2 ^ c.fld.n : Int) : c.K) = u) :
    (c.program s us).ideal c.fld [] = leBytes c.fld.nbytes
      ((XZ.ladder (c.A : c.K) u (scalarBits s) 1 0 u 1).1 * (XZ.ladder (c.A : c.K) u (scalarBits s) 1 0 u 1).2⁻¹).val := by
  simp only [program, Client.ideal, Op.ideal, List.nil_append, List.cons_append, List.getD_cons_zero, List.getD_cons_succ, zero_add, hu]
  exact ideal_rounds c.fld c.A u _ [u, 0, (c.A : c.K), 1] (n := 4) rfl (by omega) (by omega) (by omega) (by omega) (by omega) rfl rfl

theorem uses_rounds (f : Fld) (P : Op → Prop) (hP : ∀ o, P o) : ∀ (l : List Bool) (n i j i' j' : Nat),
    (ladderRounds l n i j i' j').Uses f P
  | [], _, _, _, _, _ => ⟨hP _, trivial, fun _ _ _ _ => trivial⟩
  | b :: l, n, i, j, i', j' => by
    simp only [ladderRounds, ladderRound, Client.ops, List.foldr_cons, List.foldr_nil, Client.Uses, hP, Op.Valid, true_and]
    exact uses_rounds f P hP l _ _ _ _ _

theorem Mont.uses_program (c : Mont) (s us : List Int) (hu : (Op.bytes us).Valid c.fld) :
    (c.program s us).Uses c.fld fun o => c.fld = .e251_9 → o.NotPow := by
  have h : c.fld ≠ .e251_9 := by cases c <;> decide
  refine ⟨fun e => absurd e h, hu, fun e => absurd e h, trivial, fun e => absurd e h, ?_, fun e => absurd e h, trivial, ?_⟩
  · exact ⟨by cases c <;> decide, by cases c <;> decide⟩
  · exact uses_rounds _ _ (fun _ e => absurd e h) _ _ _ _ _ _

theorem bitsVal_append (l l' : List Bool) (m : Nat) : Mont.bitsVal (l ++ l') m = Mont.bitsVal l' (Mont.bitsVal l m) := by
  induction l generalizing m with
  | nil => rfl
  | cons b l ih => exact ih _

theorem bitsVal_add (l : List Bool) (m : Nat) : Mont.bitsVal l m = 2 ^ l.length * m + Mont.bitsVal l 0 := by
  induction l generalizing m with
  | nil => simp [Mont.bitsVal]
  | cons b l ih =>
    simp only [Mont.bitsVal, List.length_cons]
    rw [ih, ih (2 * 0 + _), pow_succ]
    ring

theorem bitsVal_byte : ∀ x < 256, Mont.bitsVal ((List.range 8).reverse.map (Nat.testBit x)) 0 = x := by
  decide +kernel

theorem bitsVal_scalar {s : List Int} (h : IsBytes s) : (Mont.bitsVal (scalarBits s) 0 : Int) = leVal s := by
  induction s with
  | nil => rfl
  | cons x xs ih =>
    have hx := h x (by simp)
    have e : leVal (x :: xs) = x + 256 * leVal xs := by
      simp only [leVal, digitsVal]; norm_num
    have ih := ih fun b hb => h b (by simp [hb])
    have e2 : scalarBits (x :: xs) = scalarBits xs ++ (List.range 8).reverse.map x.toNat.testBit := by
      simp [scalarBits]
    rw [e2, bitsVal_append, bitsVal_add, bitsVal_byte _ (by omega), e, ← ih]
    simp
    omega
end Verif
