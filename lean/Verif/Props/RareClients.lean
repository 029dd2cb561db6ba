import Verif.Props.Rare
import Verif.Props.TextClients
import Verif.Props.Encodings

/-!
# Property C85: clients that use the exponentiations of `Mod_e251_9`

C53 and C59 exclude the exponentiations from the clients of `Mod_e251_9`.  Here clients that
normalize every new element may use them.  There is a set of less than one in `2^13` residues
(C84) such that a client gets the answers of `ℤ / p` as long as it divides by, inverts, or takes
Legendre symbols and roots of, none of them; if it does, the result of this instruction may be any
element, but it is an element: everything after it is right again.
-/

namespace Verif
open Fld FieldCode Rust

/-- The operand that an instruction raises to a power. -/
def Op.powArg : Op → Option Nat
  | .div _ j => some j
  | .invert i => some i
  | .legendre i => some i
  | .sqrt i => some i
  | _ => none

/-- The results the client can have when every element is a residue class and instructions that
raise an element of `S` to a power may return anything. -/
def Client.Outcome (f : Fld) (S : Finset (ZMod f.pN)) {α : Type} : Client α →
    List (ZMod f.pN) → α → Prop
  | done x, _, r => r = x
  | step o k, ds, r => ∃ d, ((∀ i, o.powArg = some i → ds.getD i 0 ∉ S) → d = o.ideal f ds) ∧
      k.Outcome f S (ds ++ [d]) r
  | normalize _ k, ds, r => k.Outcome f S ds r
  | eq i j k, ds, r => (k (decide (ds.getD i 0 = ds.getD j 0))).Outcome f S ds r
  | bit i idx k, ds, r => (k ((ds.getD i 0).val.testBit idx)).Outcome f S ds r
  | packed i k, ds, r => (k (leBytes f.nbytes (ds.getD i 0).val)).Outcome f S ds r
  | hex upper i k, ds, r => (k (hexDigits upper f.nbytes (ds.getD i 0).val)).Outcome f S ds r

/-- In the run in `ℤ / p` no element of `S` is raised to a power. -/
def Client.Avoids (f : Fld) (S : Finset (ZMod f.pN)) {α : Type} : Client α →
    List (ZMod f.pN) → Prop
  | done _, _ => True
  | step o k, ds => (∀ i, o.powArg = some i → ds.getD i 0 ∉ S) ∧
      k.Avoids f S (ds ++ [o.ideal f ds])
  | normalize _ k, ds => k.Avoids f S ds
  | eq i j k, ds => (k (decide (ds.getD i 0 = ds.getD j 0))).Avoids f S ds
  | bit i idx k, ds => (k ((ds.getD i 0).val.testBit idx)).Avoids f S ds
  | packed i k, ds => (k (leBytes f.nbytes (ds.getD i 0).val)).Avoids f S ds
  | hex upper i k, ds => (k (hexDigits upper f.nbytes (ds.getD i 0).val)).Avoids f S ds

/-! ### The exponentiations return elements whose value is not negative -/

namespace Fld

def PosRel (_ : Nat) (v : Elem) : Prop := e251_9.Tight v ∧ 0 ≤ e251_9.V v

theorem sqVal_e251_nonneg {x : Int} (h0 : 0 ≤ x) : 0 ≤ e251_9.sqVal x := by
  have := nonneg_aux (M := 2 ^ 224) (T := 2 ^ 27) (c := 9) h0 (by positivity) (by positivity)
    (by norm_num)
  exact this

theorem pos_sound (pr : Profile) (q : Elem → Res Elem) :
    Sound e251_9.code pr q expOps (fun _ _ => True) PosRel where
  sq := by
    rintro a b v - ⟨h2, h3⟩
    obtain ⟨r, g1, g2, g4⟩ := square_value pr (Tight.loose h2)
    refine ⟨r, g1, g2, ?_⟩
    rw [g4]
    exact sqVal_e251_nonneg (mul_nonneg h3 h3)
  mul := by
    rintro a a' b v w - ⟨h2, h3⟩ ⟨h2', h3'⟩ -
    obtain ⟨r, g1, g2, g4⟩ := mul_value pr (Tight.loose h2) (Tight.loose h2')
    exact ⟨r, g1, g2, g4 ▸ mulVal_nonneg _ (mul_nonneg h3 h3')⟩
  sub := by intro a a' b v w h; cases h
  add := by intro a a' b v w h; cases h
  quart := by intro a b v h; cases h

set_option maxRecDepth 100000 in
theorem exp_results :
    ((absSteps expOps (flatten e251_9.code.invertC) expInit).bind fun A => A.get 0).isSome = true ∧
    ((absSteps expOps (flatten e251_9.code.legendreC) expInit).bind fun A => A.get 0).isSome = true ∧
    ((absSteps expOps (flatten e251_9.code.sqrtC) expInit).bind fun A => A.get 0).isSome = true := by
  decide +kernel

theorem chain_pos {c : Chain}
    (hc : ((absSteps expOps (flatten c) expInit).bind fun A => A.get 0).isSome = true) {a : Elem}
    (ha : Small a) (pr : Profile) (q : Elem → Res Elem) :
    ∃ r, e251_9.code.runChain pr q c a = .ok r ∧ e251_9.Tight r ∧ 0 ≤ e251_9.V r := by
  obtain ⟨e, he⟩ := Option.isSome_iff_exists.mp hc
  obtain ⟨A, h1, h2⟩ := Option.bind_eq_some_iff.mp he
  have h0 : FieldCode.Rel PosRel expInit (e251_9.code.initRegs a) := fun i b hb => by
    obtain ⟨v, g1, g2⟩ := expInit_rel ha i b hb
    exact ⟨v, g1, g2.1, g2.2.1⟩
  obtain ⟨ρ, h3, h4⟩ := sim (pos_sound pr q) _ h0 h1 (SafeSteps.of_forall (fun _ _ => trivial) _ _)
  obtain ⟨v, h5, h6⟩ := h4 0 e h2
  exact ⟨v, by simp only [runChain, execChain_eq, h3, bind, Except.bind, reg, h5], h6⟩

end Fld

/-! ### One instruction -/

/-- The canonical element of a residue class. -/
def Fld.Of (f : Fld) (d : ZMod f.pN) (a : Elem) : Prop := f.Canon (d.val : Int) a

section
variable {f : Fld}

theorem Fld.Of.cast {d : ZMod f.pN} {a : Elem} (h : f.Of d a) : ((f.V a : Int) : ZMod f.pN) = d := by
  rw [h.2.1, Int.cast_natCast, ZMod.natCast_zmod_val]

theorem Fld.of_zero : f.Of 0 f.code.ZERO := by
  have := zero_canon f
  simpa [Fld.Of] using this

theorem Fld.Of.of_emod {x : Int} {a : Elem} (h : f.Canon (x % f.p) a) : f.Of (x : ZMod f.pN) a := by
  unfold Fld.Of
  rwa [ZMod.val_intCast, ← p_eq]

theorem Fld.Of.good {d : ZMod f.pN} {a : Elem} (h : f.Of d a) : f.Rep a ∧ f.Foldable (f.V a) := by
  refine ⟨Tight.rep h.tight, Foldable.of_gt ?_⟩
  have h1 := h.2.2.1
  have := f.p_pos
  rw [h.2.1]
  linarith

/-- A computation whose normalized result is the element of a residue class. -/
def resid (f : Fld) (d : ZMod f.pN) : Ex := .bytes (leBytes f.nbytes d.val)

theorem resid_val (f : Fld) (d : ZMod f.pN) : leVal ((leBytes f.nbytes d.val).take f.nbytes) = d.val := by
  rw [List.take_of_length_le (leBytes_length _ _).le, leVal_leBytes]
  have h : f.pN ≤ 2 ^ (8 * f.nbytes) := by cases f <;> decide +kernel
  exact (ZMod.val_lt d).trans_le h

theorem resid_lt (f : Fld) (d : ZMod f.pN) : (d.val : Int) < 2 ^ f.n := by
  have h : (f.pN : Int) ≤ 2 ^ f.n := by cases f <;> decide +kernel
  exact lt_of_lt_of_le (by exact_mod_cast ZMod.val_lt d) h

theorem resid_ok (f : Fld) (d : ZMod f.pN) : (resid f d).Valid f ∧ (resid f d).Covered f ∧
    (resid f d).den f = d := by
  refine ⟨⟨leBytes_isBytes _ _, (leBytes_length _ _).ge⟩, fun _ => ?_, ?_⟩
  · rw [resid_val]; exact resid_lt f d
  · unfold resid Ex.den
    rw [resid_val, Int.emod_eq_of_lt (Int.natCast_nonneg _) (resid_lt f d), Int.cast_natCast,
      ZMod.natCast_zmod_val]

theorem resid_exec {d : ZMod f.pN} {a : Elem} (h : f.Of d a) (pr : Profile) :
    (resid f d).disc.exec f pr = .ok a := by
  obtain ⟨h1, h2, h3⟩ := resid_ok f d
  obtain ⟨r, h4, h5⟩ := C42_normalized_partial f pr _ h1 h2
  rw [h3] at h5
  rwa [C09_canonical_unique f h h5]


theorem op_covered (o : Op) {ds : List (ZMod f.pN)} {rs : List Elem}
    (hv : o.Valid f) (hr : ∀ i, f.Of (ds.getD i 0) (rs.getD i f.code.ZERO)) (pr : Profile) {x y : Elem}
    (hx : o.exec f pr rs = .ok x) (hy : f.code.normalize pr x = .ok y) (ho : f = .e251_9 → o.NotPow) :
    f.Of (o.ideal f ds) y := by
  let e : Nat → Ex := fun i => resid f (ds.getD i 0)
  have e1 := Op.ex_exec (fun i => resid_exec (hr i) pr) (fun i => Rep.isWords (hr i).good.1) o
  have e2 := Op.exN_covered (e := e) (fun i => (resid_ok f _).2.1) hv ho
  obtain ⟨y', h1, h2⟩ := C42_normalized_partial f pr (o.exN e) (Op.exN_valid (fun i => (resid_ok f _).1) hv) e2
  rw [Op.exN_den, Op.ex_den (fun i => (resid_ok f _).2.2)] at h2
  have h3 : (o.exN e).disc.exec f pr = .ok y := by
    rw [Op.exN_disc, Ex.exec]
    show ((o.ex fun i => (e i).disc).exec f pr >>= _) = _
    rw [e1, hx]
    exact hy
  obtain rfl := ok_unique h1 h3
  exact h2

/-- What is needed of the result of an exponentiation. -/
theorem of_pos {f : Fld} {pr : Profile} {x y : Elem} (h1 : f.Tight x) (h2 : 0 ≤ f.V x) (hy : f.code.normalize pr x = .ok y) :
    f.Of (f.V x : Int) y := by
  obtain ⟨y', g1, g2⟩ := C09_normalize_partial f pr (Tight.rep h1) (by have := f.p_pos; linarith)
  obtain rfl := ok_unique g1 hy
  exact .of_emod g2

theorem pow_step (o : Op) (ho : ¬ o.NotPow) {ds : List (ZMod e251_9.pN)} {rs : List Elem}
    (hr : ∀ i, e251_9.Of (ds.getD i 0) (rs.getD i e251_9.code.ZERO)) (pr : Profile) {x y : Elem}
    (hx : o.exec e251_9 pr rs = .ok x) (hy : e251_9.code.normalize pr x = .ok y) :
    ∃ d, e251_9.Of d y ∧ ((∀ i, o.powArg = some i → ¬ Rare ((ds.getD i 0).val : Int)) → d = o.ideal e251_9 ds) := by
  obtain ⟨s1, s2, s3⟩ := seconds_ok
  obtain ⟨r1, r2, r3⟩ := exp_results
  have rare (i : Nat) (h : ¬ Rare ((ds.getD i 0).val : Int)) : ¬ Rare (e251_9.V (rs.getD i e251_9.code.ZERO)) := by
    rwa [(hr i).2.1]
  have cast (i : Nat) := (hr i).cast
  have inv (i : Nat) (h : ¬ Rare ((ds.getD i 0).val : Int)) {r : Elem}
      (g : e251_9.code.inverted pr (rs.getD i e251_9.code.ZERO) = .ok r) :
      ((e251_9.V r : Int) : ZMod e251_9.pN) = (ds.getD i 0)⁻¹ := by
    obtain ⟨r', k1, -, -, k2, k3⟩ := C15_invert_partial e251_9 pr (safe_of_list (.of_canon (hr i)) (rare i h) s1)
    obtain rfl := ok_unique g k1
    unfold Denotes at k3
    rw [dvd_iff, modEq_iff, cast] at k3
    rw [dvd_iff, modEq_iff, Int.cast_mul, cast] at k2
    by_cases h0 : ds.getD i 0 = 0
    · rw [k3 h0, h0, inv_zero]; exact Int.cast_zero
    · exact eq_inv_of_mul_eq_one_right ((k2 h0).trans Int.cast_one)
  cases o with
  | invert i =>
    obtain ⟨r, g1, g2, g3⟩ := chain_pos r1 (.of_canon (hr i)) pr noQuartic
    obtain rfl := ok_unique g1 hx
    refine ⟨_, of_pos g2 g3 hy, fun h => ?_⟩
    exact inv i (h i rfl) g1
  | legendre i =>
    obtain ⟨r, g1, g2, g3⟩ := chain_pos r2 (.of_canon (hr i)) pr noQuartic
    obtain rfl := ok_unique g1 hx
    refine ⟨_, of_pos g2 g3 hy, fun h => ?_⟩
    obtain ⟨r', k1, -, -, k2, k3, k4⟩ :=
      C17_legendre_partial e251_9 pr (safe_of_list (.of_canon (hr i)) (rare i (h i rfl)) s2)
    obtain rfl := ok_unique g1 k1
    rw [dvd_iff, isSquare_iff, cast] at *
    unfold Denotes at *
    rw [modEq_iff] at *
    show _ = if ds.getD i 0 = 0 then 0 else if IsSquare (ds.getD i 0) then 1 else -1
    split
    · next h0 => rw [k2 h0]; exact Int.cast_zero
    · next h0 =>
      split
      · next h1 => rw [k3 h0 h1]; exact Int.cast_one
      · next h1 => rw [k4 h1]; push_cast; rfl
  | sqrt i =>
    obtain ⟨r, g1, g2, g3⟩ := chain_pos r3 (.of_canon (hr i)) pr (e251_9.code.quarticLegendre pr)
    obtain rfl := ok_unique g1 hx
    refine ⟨_, of_pos g2 g3 hy, fun h => ?_⟩
    obtain ⟨r', k1, -, -, k2⟩ := C45_value_partial e251_9 pr (safe_of_list (.of_canon (hr i)) (rare i (h i rfl)) s3)
    obtain rfl := ok_unique g1 k1
    rw [k2, cast]
    rfl
  | div i j =>
    obtain ⟨v, g1, g2, g3⟩ := chain_pos r1 (.of_canon (hr j)) pr noQuartic
    have g1' : e251_9.code.inverted pr (rs.getD j e251_9.code.ZERO) = .ok v := g1
    obtain ⟨r, k1, k2, k3⟩ := mul_value pr (Tight.loose (hr i).tight) (Tight.loose g2)
    have hx' : e251_9.code.div pr (rs.getD i e251_9.code.ZERO) (rs.getD j e251_9.code.ZERO) = .ok r := by
      simp only [FieldCode.div, divAssign, g1', bind, Except.bind]; exact k1
    obtain rfl := ok_unique hx' hx
    have h0 : 0 ≤ e251_9.V (rs.getD i e251_9.code.ZERO) := by rw [(hr i).2.1]; exact (hr i).2.2.1
    refine ⟨_, of_pos k2 (k3 ▸ mulVal_nonneg _ (mul_nonneg h0 g3)) hy, fun h => ?_⟩
    obtain ⟨v', m1, m2, m3, m4⟩ := inverted_lt (.of_canon (hr j)) (rare j (h j rfl)) pr
    obtain rfl := ok_unique m1 g1'
    obtain ⟨r', n1, -, -, n2⟩ := sym_mul pr (hr i).tight g2 (fun h => by cases h) fun _ => lt_domain (hr i) m3 m4
    obtain rfl := ok_unique k1 n1
    rw [modEq_iff] at n2
    rw [n2, Int.cast_mul, cast, inv j (h j rfl) g1']
    rfl
  | _ => exact absurd trivial ho


/-- One instruction on normalized elements, in all builds. -/
theorem op_step (f : Fld) (o : Op) (hv : o.Valid f) {ds : List (ZMod f.pN)} {rs : List Elem}
    (hr : ∀ i, f.Of (ds.getD i 0) (rs.getD i f.code.ZERO)) :
    ∃ x y d, (∀ pr, o.exec f pr rs = .ok x ∧ f.code.normalize pr x = .ok y) ∧ f.Of d y ∧
      ((∀ i, o.powArg = some i → f = .e251_9 → ¬ Rare ((ds.getD i 0).val : Int)) → d = o.ideal f ds) := by
  let e : Nat → Ex := fun i => (resid f (ds.getD i 0)).disc
  have ev : (o.ex e).Valid f := Op.ex_valid (fun i => Ex.disc_valid (resid_ok f _).1) hv
  have e1 (pr : Profile) := Op.ex_exec (fun i => resid_exec (hr i) pr) (fun i => Rep.isWords (hr i).good.1) o
  obtain ⟨x, hx, -⟩ := C08_never_panics f (o.ex e) ev
  obtain ⟨y, hy, -⟩ := C08_never_panics f (.normalize (o.ex e)) ev
  have hx' (pr : Profile) : o.exec f pr rs = .ok x := (e1 pr).symm.trans (hx pr)
  have hy' (pr : Profile) : f.code.normalize pr x = .ok y := by
    have := hy pr
    rw [Ex.exec, hx] at this
    exact this
  have main : ∃ d, f.Of d y ∧
      ((∀ i, o.powArg = some i → f = .e251_9 → ¬ Rare ((ds.getD i 0).val : Int)) → d = o.ideal f ds) := by
    by_cases ho : f = .e251_9 → o.NotPow
    · exact ⟨_, op_covered o hv hr .debug (hx' _) (hy' _) ho, fun _ => rfl⟩
    · rw [Classical.not_imp] at ho
      obtain ⟨rfl, ho⟩ := ho
      obtain ⟨d, h1, h2⟩ := pow_step o ho hr .debug (hx' _) (hy' _)
      exact ⟨d, h1, fun h => h2 fun i hi => h i hi rfl⟩
  obtain ⟨d, h1, h2⟩ := main
  exact ⟨x, y, d, fun pr => ⟨hx' pr, hy' pr⟩, h1, h2⟩

/-! ### Clients -/

theorem set_self (rs : List Elem) (i : Nat) (z : Elem) : rs.set i (rs.getD i z) = rs := by
  induction rs generalizing i with
  | nil => rfl
  | cons a rs ih =>
    cases i with
    | zero => rfl
    | succ i => exact congrArg (a :: ·) (ih i)

theorem Fld.Of.same {d : ZMod f.pN} {a b : Elem} (h : f.Of d a) (hb : f.Canon (f.V a % f.p) b) : b = a := by
  refine C09_canonical_unique f hb ?_
  rw [Int.emod_eq_of_lt (by rw [h.2.1]; exact h.2.2.1) (by rw [h.2.1]; exact h.2.2.2), h.2.1]
  exact h

theorem Client.run_step {o : Op} {pr : Profile} {rs : List Elem} {x y : Elem} {α : Type} (k : Client α)
    (h : o.exec f pr rs = .ok x ∧ f.code.normalize pr x = .ok y) :
    (Client.step o k).run f pr true rs = k.run f pr true (rs ++ [y]) := by
  simp only [Client.run, h.1, h.2, bind, Except.bind, if_true]

theorem Client.outcome {S : Finset (ZMod f.pN)} (hS : ∀ d : ZMod f.pN, f = .e251_9 → Rare (d.val : Int) → d ∈ S)
    {α : Type} (c : Client α) : ∀ {ds : List (ZMod f.pN)} {rs : List Elem}, c.Uses f (fun _ => True) →
      List.Forall₂ f.Of ds rs → ∃ r, (∀ pr, c.run f pr true rs = .ok r) ∧ c.Outcome f S ds r := by
  induction c with
  | done x => intro ds rs _ _; exact ⟨x, fun _ => rfl, rfl⟩
  | step o k ih =>
    intro ds rs hu h
    obtain ⟨x, y, d, h1, h2, h3⟩ := op_step f o hu.2.1 (forall₂_getD of_zero h)
    obtain ⟨r, h4, h5⟩ := ih hu.2.2 (forall₂_snoc h h2)
    refine ⟨r, fun pr => ?_, d, fun hd => h3 fun i hi hf hR => hd i hi (hS _ hf hR), h5⟩
    simp only [Client.run, (h1 pr).1, (h1 pr).2, bind, Except.bind, if_true]
    exact h4 pr
  | normalize i k ih =>
    intro ds rs hu h
    have hi := forall₂_getD of_zero h i
    obtain ⟨r, h4, h5⟩ := ih hu h
    refine ⟨r, fun pr => ?_, h5⟩
    obtain ⟨x, h6, -, h7⟩ := C09_normalize_correct_iff f pr hi.good.1
    obtain rfl := hi.same (h7.2 hi.good.2)
    simp only [Client.run, h6, bind, Except.bind, set_self]
    exact h4 pr
  | eq i j k ih =>
    intro ds rs hu h
    have hi := forall₂_getD of_zero h i
    have hj := forall₂_getD of_zero h j
    obtain ⟨r, h4, h5⟩ := ih (decide (ds.getD i 0 = ds.getD j 0)) (hu _) h
    refine ⟨r, fun pr => ?_, h5⟩
    obtain ⟨x, y, b, h1, h2, h3, h6⟩ := C10_normalize_eq_partial f pr hi.good.1 hj.good.1 hi.good.2 hj.good.2
    have hb : b = decide (ds.getD i 0 = ds.getD j 0) := by
      rw [modEq_iff, hi.cast, hj.cast] at h6
      rw [Bool.eq_iff_iff, h6, decide_eq_true_eq]
    subst hb
    obtain rfl := hi.same h2
    obtain rfl := hj.same h3
    simp only [Client.run, h1, bind, Except.bind, set_self]
    exact h4 pr
  | bit i idx k ih =>
    intro ds rs hu h
    have hi := forall₂_getD of_zero h i
    obtain ⟨r, h4, h5⟩ := ih ((ds.getD i 0).val.testBit idx) (hu.2 _) h
    refine ⟨r, fun pr => ?_, h5⟩
    obtain ⟨x, h1, h2⟩ := (C20_bit_partial f pr hi.good.1 hi.good.2 idx).1 hu.1
    have hb : decide ((f.V (rs.getD i f.code.ZERO) % f.p) / 2 ^ idx % 2 = 1) =
        (ds.getD i 0).val.testBit idx := by
      rw [val_cast hi.cast, Nat.testBit_eq_decide_div_mod_eq]
      exact decide_eq_decide.mpr (by norm_cast)
    rw [hb] at h1
    obtain rfl := hi.same h2
    simp only [Client.run, h1, bind, Except.bind, set_self]
    exact h4 pr
  | packed i k ih =>
    intro ds rs hu h
    have hi := forall₂_getD of_zero h i
    have hk := hu (leBytes f.nbytes (ds.getD i 0).val) (leBytes_length _ _) (leBytes_isBytes _ _) (by
      have := resid_val f (ds.getD i 0)
      rw [List.take_of_length_le (leBytes_length _ _).le] at this
      rw [this, p_eq]
      exact_mod_cast ZMod.val_lt _)
    obtain ⟨r, h4, h5⟩ := ih _ hk h
    refine ⟨r, fun pr => ?_, h5⟩
    obtain ⟨x, out, h1, h2, h3, h6, h7⟩ := C11_packed_partial f pr hi.good.1 hi.good.2
    rw [val_cast hi.cast] at h7
    have e := eq_leBytes h6 h7
    rw [h3] at e
    obtain rfl := hi.same h2
    simp only [Client.run, h1, bind, Except.bind, set_self, e]
    exact h4 pr
  | hex upper i k ih =>
    intro ds rs hu h
    have hi := forall₂_getD of_zero h i
    obtain ⟨r, h4, h5⟩ := ih (hexDigits upper f.nbytes (ds.getD i 0).val) (hu _) h
    refine ⟨r, fun pr => ?_, h5⟩
    obtain ⟨x, out, h1, h2, h3, h6, h7⟩ := C11_packed_partial f pr hi.good.1 hi.good.2
    rw [val_cast hi.cast] at h7
    have e := eq_leBytes h6 h7
    rw [h3] at e
    have e1 : f.code.fmtHex pr upper (rs.getD i f.code.ZERO) =
        .ok (hexDigits upper f.nbytes (ds.getD i 0).val) := by
      simp only [FieldCode.fmtHex, h1, bind, Except.bind, pure, Except.pure, e, hex_leBytes]
    simp only [Client.run, e1, bind, Except.bind]
    exact h4 pr

/-- A client that avoids the set has only one result. -/
theorem Client.Outcome.ideal {S : Finset (ZMod f.pN)} {α : Type} {c : Client α} {r : α} :
    ∀ {ds : List (ZMod f.pN)}, c.Outcome f S ds r → c.Avoids f S ds → r = c.ideal f ds := by
  induction c with
  | done x => intro ds h _; exact h
  | step o k ih =>
    rintro ds ⟨d, h1, h2⟩ ⟨h3, h4⟩
    obtain rfl := h1 h3
    exact ih h2 h4
  | normalize i k ih => intro ds h h'; exact ih h h'
  | eq i j k ih => intro ds h h'; exact ih _ h h'
  | bit i idx k ih => intro ds h h'; exact ih _ h h'
  | packed i k ih => intro ds h h'; exact ih _ h h'
  | hex upper i k ih => intro ds h h'; exact ih _ h h'

end

/-! ### C85 -/

open Classical in
/-- The residues for which the exponentiations of `Mod_e251_9` can be wrong. -/
noncomputable def Fld.rareSet (f : Fld) : Finset (ZMod f.pN) :=
  Finset.univ.filter fun d => f = .e251_9 ∧ Rare (d.val : Int)

open Classical in
theorem Fld.mem_rareSet {f : Fld} {d : ZMod f.pN} : d ∈ f.rareSet ↔ f = .e251_9 ∧ Rare (d.val : Int) := by
  unfold Fld.rareSet
  rw [Finset.mem_filter, and_iff_right (Finset.mem_univ d)]

theorem Fld.rareSet_empty {f : Fld} (hf : f ≠ .e251_9) : f.rareSet = ∅ :=
  Finset.eq_empty_of_forall_notMem fun _ h => hf (mem_rareSet.mp h).1

theorem Fld.rareSet_card (f : Fld) : f.rareSet.card * 2 ^ 13 < f.pN := by
  by_cases hf : f = .e251_9
  · subst hf
    refine (Nat.mul_le_mul_right _ ?_).trans_lt rare_few
    rw [← Set.ncard_coe_finset]
    refine Set.ncard_le_ncard_of_injOn ZMod.val ?_ (fun a _ b _ h => ZMod.val_injective _ h)
      ((Set.finite_Iio e251_9.pN).subset fun n hn => hn.1)
    intro d hd
    exact ⟨ZMod.val_lt d, (mem_rareSet.mp hd).2⟩
  · rw [rareSet_empty hf, Finset.card_empty, Nat.zero_mul]
    have := f.pN_facts.1
    omega

theorem Client.text_outcome (f : Fld) {α : Type} (c : Client α) (hc : c.Uses f fun _ => True) :
    ∃ r, (∀ w, c.text (src f) w 12 f true = .ok r) ∧ c.Outcome f f.rareSet [] r := by
  obtain ⟨r, h1, h2⟩ := Client.outcome (S := f.rareSet) (fun d hf h => mem_rareSet.mpr ⟨hf, h⟩) c (rs := []) hc .nil
  refine ⟨r, fun w => ?_, h2⟩
  rw [C59_client_model (has_src f) w (Nat.le_refl 12), h1]
  rfl

/-- C85: there is a set of less than one in `2^13` residues, empty in the other eight types, with this property.  Every client of the text
that normalizes every new element returns in all builds the same result, which is one it can have in `ℤ / p` if instructions that raise an
element of the set to a power may return anything. -/
theorem C85_clients (f : Fld) : ∃ S : Finset (ZMod f.pN), S.card * 2 ^ 13 < f.pN ∧ (f ≠ .e251_9 → S = ∅) ∧
    ∀ {α : Type} (c : Client α), c.Uses f (fun _ => True) →
      ∃ r, (∀ w, c.text (src f) w 12 f true = .ok r) ∧ c.Outcome f S [] r :=
  ⟨f.rareSet, f.rareSet_card, rareSet_empty, fun c hc => c.text_outcome f hc⟩

/-- C85: the client cannot tell the text from `ℤ / p` if in `ℤ / p` it raises no element of the set to a power. -/
theorem C85_avoiding (f : Fld) : ∃ S : Finset (ZMod f.pN), S.card * 2 ^ 13 < f.pN ∧ (f ≠ .e251_9 → S = ∅) ∧
    ∀ {α : Type} (c : Client α), c.Uses f (fun _ => True) → c.Avoids f S [] →
      ∀ w, c.text (src f) w 12 f true = .ok (c.ideal f []) := by
  refine ⟨f.rareSet, f.rareSet_card, rareSet_empty, fun c hc ha w => ?_⟩
  obtain ⟨r, h1, h2⟩ := c.text_outcome f hc
  rw [h1, h2.ideal ha]

/-- Tells whether the square of the root of `x` is `x`. -/
def rootClient (x : List Int) : Client Bool :=
  .step (.bytes x) <| .step (.sqrt 0) <| .step (.square 1) <| .eq 0 2 .done

theorem rootClient_uses {x : List Int} (hx : (Op.bytes x).Valid e251_9) : (rootClient x).Uses .e251_9 fun _ => True :=
  ⟨trivial, hx, trivial, trivial, trivial, trivial, fun _ => trivial⟩

/-- A client that finds out a wrong root. -/
theorem rootClient_wrong {a r s : Elem} {x : Int} (hc : e251_9.Canon (e251_9.V a) a) (hsq : x * x ≡ e251_9.V a [ZMOD e251_9.p])
    (h1 : e251_9.code.sqrt .debug a = .ok r) (h2 : e251_9.code.squared .debug r = .ok s)
    (h3 : ¬ e251_9.Denotes s (e251_9.V a)) :
    ∃ x, (rootClient x).Uses .e251_9 (fun _ => True) ∧ (rootClient x).ideal .e251_9 [] = true ∧
    ∀ w, (rootClient x).text (src .e251_9) w 12 .e251_9 true = .ok false := by
  generalize hd : ((e251_9.V a : Int) : ZMod e251_9.pN) = d at *
  have ho : e251_9.Of d a := by
    rw [← hd]
    refine .of_emod ?_
    rwa [Int.emod_eq_of_lt hc.2.2.1 hc.2.2.2]
  have hv : (Op.bytes (leBytes e251_9.nbytes d.val)).Valid e251_9 := ⟨leBytes_isBytes _ _, (leBytes_length _ _).ge, nofun⟩
  have hden : (Op.bytes (leBytes e251_9.nbytes d.val)).ideal e251_9 [] = d := (resid_ok e251_9 d).2.2
  refine ⟨leBytes e251_9.nbytes d.val, rootClient_uses hv, ?_, fun w => ?_⟩
  · have hs : IsSquare d := by rw [← hd, ← isSquare_iff]; exact ⟨_, hsq⟩
    simp only [rootClient, Client.ideal, hden]
    simp only [List.nil_append, List.cons_append, Op.ideal, List.getD_cons_zero, List.getD_cons_succ, decide_eq_true_eq]
    exact (C45_root e251_9 hs).1.symm
  · rw [C59_client_model (has_src _) w (Nat.le_refl 12)]
    obtain ⟨x0, y0, d0, a1, a2, a3⟩ := op_step e251_9 _ hv (ds := []) (rs := []) fun _ => of_zero
    obtain rfl := (a3 nofun).trans hden
    obtain rfl := C09_canonical_unique e251_9 ho a2
    have hr : List.Forall₂ e251_9.Of [d0] [a] := .cons a2 .nil
    obtain ⟨x1, y1, d1, b1, b2, -⟩ := op_step e251_9 (.sqrt 0) trivial (forall₂_getD of_zero hr)
    have b3 := (b1 .debug).1
    simp only [Op.exec, List.getD_cons_zero] at b3
    obtain rfl := ok_unique h1 b3
    obtain ⟨r', g1, g2, g3⟩ := chain_pos exp_results.2.2 (.of_canon hc) .debug (e251_9.code.quarticLegendre .debug)
    obtain rfl := ok_unique h1 g1
    have b4 : d1 = ((e251_9.V r : Int) : ZMod e251_9.pN) := b2.cast.symm.trans (of_pos g2 g3 (b1 .debug).2).cast
    obtain ⟨b, c1, c2⟩ := Client.outcome (f := e251_9) (S := e251_9.rareSet) (fun d hf h => mem_rareSet.mpr ⟨hf, h⟩)
      (.step (.square 1) <| .eq 0 2 .done) (ds := [d0, d1]) (rs := [a, y1])
      ⟨trivial, trivial, fun _ => trivial⟩ (.cons a2 (.cons b2 .nil))
    have hrun : (rootClient (leBytes e251_9.nbytes d0.val)).run e251_9 w.pr true [] = .ok b := by
      rw [rootClient, Client.run_step _ (a1 w.pr), List.nil_append, Client.run_step _ (b1 w.pr)]
      exact c1 w.pr
    rw [hrun]
    obtain ⟨d2, e1, e2⟩ := c2
    have e3 := e1 nofun
    simp only [Op.ideal, List.getD_cons_zero, List.getD_cons_succ] at e3
    simp only [Client.Outcome, List.cons_append, List.nil_append, List.getD_cons_zero, List.getD_cons_succ] at e2
    rw [e2, decide_eq_false]
    · rfl
    · intro h
      refine h3 ?_
      obtain ⟨s', k1, -, k2⟩ := C05_square e251_9 .debug g2
      obtain rfl := ok_unique h2 k1
      refine k2.trans ?_
      rw [modEq_iff, Int.cast_mul, ← b4, hd, ← e3, ← h]

/-- C85: the set cannot be empty for `Mod_e251_9`.  For the square of C18 the client gets another answer than in `ℤ / p`. -/
theorem C85_needed : ∃ x, (rootClient x).Uses .e251_9 (fun _ => True) ∧ (rootClient x).ideal .e251_9 [] = true ∧
    ∀ w, (rootClient x).text (src .e251_9) w 12 .e251_9 true = .ok false := by
  obtain ⟨hc, hsq, r, s, h1, h2, h3⟩ := C18_e251_counterexample .debug
  exact rootClient_wrong hc hsq h1 h2 h3

end Verif
