import Verif.Check.Total
import Verif.Field.ChainSym

/-!
# The limb code and the chains on arbitrary words (helper lemmas)
-/

namespace Verif
open FieldCode

/-- `a` is a value of the Rust type: `k` words, each an `i64`. -/
def Fld.Words (f : Fld) (a : Elem) : Prop := a.length = f.k ∧ ∀ x ∈ a, IsI64 x

namespace Fld
variable (f : Fld)

/-- The program uses only defined slots, given `m` argument slots. -/
def okLimb (P : Prog) (m : Nat) : Bool := (Check.okP P (Check.initT f.k m)).isSome

set_option maxRecDepth 100000 in
theorem okLimb_all : (f.okLimb f.code.addP f.k && f.okLimb f.code.subP f.k &&
    f.okLimb f.code.mulP f.k && f.okLimb f.code.squareP 0 && f.okLimb f.code.smallAddP 1 &&
    f.okLimb f.code.smallSubP 1 && f.okLimb f.code.smallMulP 1 &&
    f.okLimb f.code.unpackP f.nbytes && f.okLimb f.code.packP f.nbytes) = true := by
  cases f <;> decide +kernel

end Fld

theorem Check.okP_grows : ∀ (P : Prog) {A A' : Tree Unit}, okP P A = some A' →
    ∀ s, (A.get s).isSome = true → (A'.get s).isSome = true := by
  intro P
  induction P with
  | nil => intro A A' h s hs; cases h; exact hs
  | cons st P ih =>
    intro A A' h s hs
    have hset : ∀ t, ((A.set t ()).get s).isSome = true := by
      intro t
      by_cases e : s = t
      · subst e; rw [Tree.get_set_self]; rfl
      · rw [Tree.get_set_ne _ _ e]; exact hs
    cases st with
    | bind t e =>
      simp only [okP] at h
      split at h
      · exact ih h s (hset t)
      · cases h
    | store t e =>
      simp only [okP] at h
      split at h
      · exact ih h s (hset t)
      · cases h

theorem initT_self {k m s : Nat} (hk : s < k) (hk' : k ≤ 16) :
    ((Check.initT k m).get s).isSome = true := by
  simp only [Check.initT, Tree.get_setList, List.length_replicate, Tree.get_leaf]
  rw [if_neg (by omega), if_pos (by omega), List.getElem?_replicate, if_pos (by omega)]
  rfl

theorem initT_arg {k m s : Nat} (hs : 16 ≤ s) (hm : s < 16 + m) :
    ((Check.initT k m).get s).isSome = true := by
  simp only [Check.initT, Tree.get_setList, List.length_replicate, Tree.get_leaf]
  rw [if_pos (by omega), List.getElem?_replicate, if_pos (by omega)]
  rfl

variable {f : Fld}

/-- A limb function on arbitrary words, in a release build. -/
theorem runLimb_total {P : Prog} {m : Nat} (hP : f.okLimb P m = true) (hm : m ≤ 112) {a : Elem}
    {b : List Int} (ha : f.Words a) (hb : m ≤ b.length) (hb' : ∀ x ∈ b, IsI64 x) :
    ∃ r, f.code.runLimb .release P a b = .ok r ∧ f.Words r := by
  obtain ⟨A, hA⟩ := Option.isSome_iff_exists.mp hP
  have h0 := Check.initT_holds (k := f.k) (m := m) ha.1.ge hb hm f.k_le ha.2 hb'
  obtain ⟨ρ, h1, h2⟩ := Check.run_total P h0 hA
  refine ⟨readSlots ρ 0 f.code.limbs,
    by simp only [runLimb, h1, bind, Except.bind, pure, Except.pure], ?_, ?_⟩
  · rw [Check.readSlots_len, f.limbs_eq]
  · rw [f.limbs_eq]
    refine Check.readSlots_isI64 h2 _ _ fun j _ hj => ?_
    exact Check.okP_grows P hA j (initT_self (by omega) f.k_le)

theorem runLimb_coh (F : FieldCode) (P : Prog) (a : Elem) (b : List Int) :
    Coh fun pr => F.runLimb pr P a b :=
  (Coh.runProg P _).bind fun _ => .const _

theorem IsI32.isI64 {b : Int} (h : IsI32 b) : IsI64 b := by
  unfold IsI32 at h; unfold IsI64; omega

theorem mem_single {b : Int} (h : IsI64 b) : ∀ x ∈ [b], IsI64 x := by
  intro x hx; rw [List.mem_singleton] at hx; rw [hx]; exact h

/-! ### Chains -/

/-- Abstract operations that always succeed. -/
def wordOps (quart : Bool) : AbsOps Unit where
  sq _ := some ()
  mul _ _ := some ()
  sub _ _ := some ()
  add _ _ := some ()
  quart _ := if quart then some () else none

def Fld.initU (f : Fld) : Tree Unit :=
  let A := ((Tree.leaf : Tree Unit).set 0 ()).set 1 ()
  let A := if f.code.M_HALF.isSome then A.set 2 () else A
  if f.code.COEFF.isSome then A.set 3 () else A

/-- All registers a chain reads are defined. -/
def Fld.okChain (f : Fld) (quart : Bool) (c : Chain) : Bool :=
  match absSteps (wordOps quart) (flatten c) f.initU with
  | some A => (A.get 0).isSome
  | none => false

def isI64B (x : Int) : Bool := decide (-9223372036854775808 ≤ x) && decide (x < 9223372036854775808)

def Fld.wordsB (f : Fld) (a : Elem) : Bool := decide (a.length = f.k) && a.all isI64B

theorem Fld.words_of_wordsB {f : Fld} {a : Elem} (h : f.wordsB a = true) : f.Words a := by
  simp only [wordsB, Bool.and_eq_true, decide_eq_true_eq, List.all_eq_true, isI64B] at h
  refine ⟨h.1, fun x hx => ?_⟩
  have := h.2 x hx
  unfold IsI64; omega

theorem consts_words (f : Fld) : f.Words f.code.ZERO ∧ f.Words f.code.ONE ∧
    f.Words f.code.M_ONE ∧ f.Words f.code.MODULUS ∧ (∀ c, f.code.M_HALF = some c → f.Words c) ∧
    (∀ c, f.code.COEFF = some c → f.Words c) := by
  have h : (f.wordsB f.code.ZERO && f.wordsB f.code.ONE && f.wordsB f.code.M_ONE &&
      f.wordsB f.code.MODULUS && (f.code.M_HALF.all f.wordsB) && (f.code.COEFF.all f.wordsB)) = true := by
    cases f <;> decide +kernel
  simp only [Bool.and_eq_true] at h
  refine ⟨f.words_of_wordsB h.1.1.1.1.1, f.words_of_wordsB h.1.1.1.1.2, f.words_of_wordsB h.1.1.1.2,
    f.words_of_wordsB h.1.1.2, fun c hc => f.words_of_wordsB ?_, fun c hc => f.words_of_wordsB ?_⟩
  · have := h.1.2; rw [hc] at this; exact this
  · have := h.2; rw [hc] at this; exact this

theorem limb_oks (f : Fld) : (f.okLimb f.code.addP f.k = true ∧ f.okLimb f.code.subP f.k = true ∧
    f.okLimb f.code.mulP f.k = true ∧ f.okLimb f.code.squareP 0 = true) ∧
    (f.okLimb f.code.smallAddP 1 = true ∧
    f.okLimb f.code.smallSubP 1 = true ∧ f.okLimb f.code.smallMulP 1 = true) ∧
    f.okLimb f.code.unpackP f.nbytes = true ∧ f.okLimb f.code.packP f.nbytes = true := by
  have h := f.okLimb_all
  simp only [Bool.and_eq_true] at h
  tauto

theorem bin_total {P : Prog} (hP : f.okLimb P f.k = true) {a b : Elem} (ha : f.Words a)
    (hb : f.Words b) : ∃ r, f.code.runLimb .release P a b = .ok r ∧ f.Words r :=
  runLimb_total hP (by have := f.k_le; omega) ha hb.1.ge hb.2

theorem square_total {a : Elem} (ha : f.Words a) :
    ∃ r, f.code.square .release a = .ok r ∧ f.Words r :=
  runLimb_total (limb_oks f).1.2.2.2 (by omega) ha (Nat.zero_le _) (by intro x hx; cases hx)

theorem int_total {P : Prog} (hP : f.okLimb P 1 = true) {a : Elem} {b : Int} (ha : f.Words a)
    (hb : IsI64 b) : ∃ r, f.code.runLimb .release P a [b] = .ok r ∧ f.Words r :=
  runLimb_total hP (by omega) ha le_rfl (mem_single hb)

theorem unit_sound (quart : Bool) {q : Elem → Res Elem}
    (hq : quart = true → ∀ v, f.Words v → ∃ r, q v = .ok r ∧ f.Words r) :
    Sound f.code .release q (wordOps quart) (fun _ _ => True) (fun _ => f.Words) where
  sq _ hv := square_total hv
  mul _ hv hw _ := bin_total (limb_oks f).1.2.2.1 hv hw
  sub _ hv hw := bin_total (limb_oks f).1.2.1 hv hw
  add _ hv hw := bin_total (limb_oks f).1.1 hv hw
  quart h hv := by
    cases quart with
    | false => cases h
    | true => exact hq rfl _ hv

theorem initU_rel {a : Elem} (ha : f.Words a) :
    Rel (fun _ : Unit => f.Words) f.initU (f.code.initRegs a) := by
  obtain ⟨-, h1, -, -, h2, h3⟩ := consts_words f
  have h0 : Rel (fun _ : Unit => f.Words) (Tree.leaf : Tree Unit) (Tree.leaf : Regs) := by
    intro i a h; rw [Tree.get_leaf] at h; cases h
  have h01 := (h0.set 0 (a := ()) ha).set 1 (a := ()) h1
  unfold Fld.initU FieldCode.initRegs
  simp only
  have hH : Rel (fun _ : Unit => f.Words)
      (if f.code.M_HALF.isSome then (((Tree.leaf : Tree Unit).set 0 ()).set 1 ()).set 2 ()
        else ((Tree.leaf : Tree Unit).set 0 ()).set 1 ())
      (match f.code.M_HALF with
        | some c => (((Tree.leaf : Regs).set 0 a).set 1 f.code.ONE).set 2 c
        | none => ((Tree.leaf : Regs).set 0 a).set 1 f.code.ONE) := by
    cases hc : f.code.M_HALF with
    | none => exact h01
    | some c => exact h01.set 2 (h2 c hc)
  cases hc : f.code.COEFF with
  | none => exact hH
  | some c => exact hH.set 3 (h3 c hc)

theorem chain_total (quart : Bool) {q : Elem → Res Elem}
    (hq : quart = true → ∀ v, f.Words v → ∃ r, q v = .ok r ∧ f.Words r) {c : Chain}
    (hc : f.okChain quart c = true) {a : Elem} (ha : f.Words a) :
    ∃ r, f.code.runChain .release q c a = .ok r ∧ f.Words r := by
  unfold Fld.okChain at hc
  split at hc
  · next A hA =>
    obtain ⟨ρ, h1, h2⟩ := sim (unit_sound quart hq) (flatten c) (initU_rel ha) hA
      (SafeSteps.of_forall (fun _ _ => trivial) _ _)
    obtain ⟨x, hx⟩ := Option.isSome_iff_exists.mp hc
    obtain ⟨r, h3, h4⟩ := h2 0 x hx
    exact ⟨r, by simp only [runChain, execChain_eq, h1, bind, Except.bind, reg, h3], h4⟩
  · cases hc

set_option maxRecDepth 100000 in
theorem chain_oks (f : Fld) : f.okChain false f.code.invertC = true ∧
    f.okChain false f.code.legendreC = true ∧
    (f.code.quarticC.all (f.okChain false)) = true ∧
    f.okChain f.code.quarticC.isSome f.code.sqrtC = true := by
  cases f <;> decide +kernel

theorem quartic_total {a : Elem} (hf : f.code.quarticC.isSome = true) (ha : f.Words a) :
    ∃ r, f.code.quarticLegendre .release a = .ok r ∧ f.Words r := by
  obtain ⟨c, hc⟩ := Option.isSome_iff_exists.mp hf
  have h := (chain_oks f).2.2.1
  rw [hc] at h
  obtain ⟨r, h1, h2⟩ := chain_total false (q := noQuartic) (by intro h; cases h) h ha
  exact ⟨r, by simp only [quarticLegendre, hc, h1], h2⟩

theorem invert_total {a : Elem} (ha : f.Words a) :
    ∃ r, f.code.inverted .release a = .ok r ∧ f.Words r :=
  chain_total false (by intro h; cases h) (chain_oks f).1 ha

theorem legendre_total {a : Elem} (ha : f.Words a) :
    ∃ r, f.code.legendre .release a = .ok r ∧ f.Words r :=
  chain_total false (by intro h; cases h) (chain_oks f).2.1 ha

theorem sqrt_total {a : Elem} (ha : f.Words a) :
    ∃ r, f.code.sqrt .release a = .ok r ∧ f.Words r :=
  chain_total _ (fun h _ hv => quartic_total h hv) (chain_oks f).2.2.2 ha

/-! ### Debug against release -/

theorem execStep_coh (F : FieldCode) {q : Profile → Elem → Res Elem}
    (hq : ∀ v, Coh fun pr => q pr v) (ρ : Regs) (s : CStep) :
    Coh fun pr => F.execStep pr (q pr) ρ s := by
  cases s with
  | clone x y | ret x => exact .const _
  | squared x y | square x =>
    exact (Coh.const _).bind fun _ => (runLimb_coh F _ _ _).bind fun _ => .const _
  | quartic x y => exact (Coh.const _).bind fun _ => (hq _).bind fun _ => .const _
  | mulAssign x y | subAssign x y | addAssign x y | retMul x y =>
    exact (Coh.const _).bind fun _ => (Coh.const _).bind fun _ =>
      (runLimb_coh F _ _ _).bind fun _ => .const _

theorem execSteps_coh (F : FieldCode) {q : Profile → Elem → Res Elem}
    (hq : ∀ v, Coh fun pr => q pr v) (s : List CStep) :
    ∀ ρ : Regs, Coh fun pr => F.execSteps pr (q pr) s ρ := by
  induction s with
  | nil => intro ρ; exact .const _
  | cons x s ih => intro ρ; exact (execStep_coh F hq ρ x).bind ih

theorem runChain_coh (F : FieldCode) {q : Profile → Elem → Res Elem}
    (hq : ∀ v, Coh fun pr => q pr v) (c : Chain) (a : Elem) :
    Coh fun pr => F.runChain pr (q pr) c a := by
  simp only [runChain, execChain_eq]
  exact (execSteps_coh F hq _ _).bind fun _ => .const _

theorem quartic_coh (F : FieldCode) (a : Elem) : Coh fun pr => F.quarticLegendre pr a := by
  unfold quarticLegendre
  cases F.quarticC with
  | none => exact .const _
  | some c => exact runChain_coh F (fun _ => .const _) c a

end Verif
