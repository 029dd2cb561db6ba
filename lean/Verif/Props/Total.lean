import Verif.Props.SmallMulAll
import Verif.Field.Total
import Verif.Model.Edwards
import Verif.Props.Canon

/-!
# C52: arbitrary words; debug builds against release builds

The theorems of this file assume nothing about the values of the words except that they are
`i64`s.
-/

namespace Verif
open FieldCode

/-- A release build returns something with property `P`; a debug build returns the same or panics
because of an integer overflow. -/
def Outcome {α : Type} (g : Profile → Res α) (P : α → Prop) : Prop :=
  ∃ r, g .release = .ok r ∧ P r ∧ (g .debug = .ok r ∨ g .debug = .error .overflow)

namespace Outcome
variable {α β : Type} {P : α → Prop} {Q : β → Prop}

theorem const {x : Res α} {r : α} (h : x = .ok r) (hP : P r) : Outcome (fun _ => x) P :=
  ⟨r, h, hP, .inl h⟩

theorem pure {r : α} (hP : P r) : Outcome (fun _ => (.ok r : Res α)) P := const rfl hP

theorem bind {g : Profile → Res α} {h : Profile → α → Res β} (hg : Outcome g P)
    (hh : ∀ a, P a → Outcome (fun pr => h pr a) Q) :
    Outcome (fun pr => (g pr >>= h pr : Res β)) Q := by
  obtain ⟨r, h1, h2, h3⟩ := hg
  obtain ⟨r', h4, h5, h6⟩ := hh r h2
  refine ⟨r', by simp only [h1]; exact h4, h5, ?_⟩
  rcases h3 with h3 | h3
  · simp only [h3]; exact h6
  · exact .inr (by simp only [h3]; rfl)

theorem of_coh {g : Profile → Res α} {r : α} (hg : Coh g) (h : g .release = .ok r) (hP : P r) :
    Outcome g P := ⟨r, h, hP, hg.ok h⟩

theorem mono {P' : α → Prop} {g : Profile → Res α} (hg : Outcome g P) (h : ∀ a, P a → P' a) :
    Outcome g P' := by
  obtain ⟨r, h1, h2, h3⟩ := hg
  exact ⟨r, h1, h _ h2, h3⟩

end Outcome

variable (f : Fld)

/-! ### The operations on single elements -/

theorem out_bin {f : Fld} {P : Prog} (hP : f.okLimb P f.k = true) {a b : Elem} (ha : f.Words a)
    (hb : f.Words b) : Outcome (fun pr => f.code.runLimb pr P a b) f.Words := by
  obtain ⟨r, h1, h2⟩ := bin_total hP ha hb
  exact .of_coh (runLimb_coh _ _ _ _) h1 h2

theorem out_int {f : Fld} {P : Prog} (hP : f.okLimb P 1 = true) {a : Elem} {n : Int}
    (ha : f.Words a) (hn : IsI64 n) : Outcome (fun pr => f.code.runLimb pr P a [n]) f.Words := by
  obtain ⟨r, h1, h2⟩ := int_total hP ha hn
  exact .of_coh (runLimb_coh _ _ _ _) h1 h2

theorem C52_add {a b : Elem} (ha : f.Words a) (hb : f.Words b) :
    Outcome (fun pr => f.code.add pr a b) f.Words := out_bin (limb_oks f).1.1 ha hb

theorem C52_sub {a b : Elem} (ha : f.Words a) (hb : f.Words b) :
    Outcome (fun pr => f.code.sub pr a b) f.Words := out_bin (limb_oks f).1.2.1 ha hb

theorem C52_mul {a b : Elem} (ha : f.Words a) (hb : f.Words b) :
    Outcome (fun pr => f.code.mul pr a b) f.Words := out_bin (limb_oks f).1.2.2.1 ha hb

theorem C52_square {a : Elem} (ha : f.Words a) :
    Outcome (fun pr => f.code.squared pr a) f.Words := by
  obtain ⟨r, h1, h2⟩ := square_total ha
  exact .of_coh (runLimb_coh _ _ _ _) h1 h2

theorem C52_small_add {a : Elem} {n : Int} (ha : f.Words a) (hn : IsI32 n) :
    Outcome (fun pr => f.code.smallAdd pr a n) f.Words := out_int (limb_oks f).2.1.1 ha hn.isI64

theorem C52_small_sub {a : Elem} {n : Int} (ha : f.Words a) (hn : IsI32 n) :
    Outcome (fun pr => f.code.smallSub pr a n) f.Words := out_int (limb_oks f).2.1.2.1 ha hn.isI64

theorem C52_small_mul {a : Elem} {n : Int} (ha : f.Words a) (hn : IsI32 n) :
    Outcome (fun pr => f.code.smallMul pr a n) f.Words := out_int (limb_oks f).2.1.2.2 ha hn.isI64

theorem C52_neg {a : Elem} (ha : f.Words a) : Outcome (fun pr => f.code.neg pr a) f.Words :=
  C52_add f ha (consts_words f).2.2.2.1

theorem asI32_isI32 (x : Int) : IsI32 (asI32 x) := by unfold asI32 IsI32; omega

theorem C52_normalize {a : Elem} (ha : f.Words a) :
    Outcome (fun pr => f.code.normalize pr a) f.Words := by
  refine (C52_small_add f ha (asI32_isI32 _)).bind fun x hx => ?_
  have hk : f.code.carryLimb < x.length := by rw [f.carryLimb_eq, hx.1]; have := f.k_pos; omega
  refine Outcome.bind (P := fun _ => True) (.const (r := shr64 x[f.code.carryLimb] f.code.carryShift)
    (by simp only [carryOut, List.getElem?_eq_getElem hk]) trivial) fun c _ => ?_
  refine (C52_small_mul f (consts_words f).2.2.2.1 (asI32_isI32 _)).bind fun y hy => ?_
  exact C52_sub f ha hy

theorem C52_invert {a : Elem} (ha : f.Words a) :
    Outcome (fun pr => f.code.inverted pr a) f.Words := by
  obtain ⟨r, h1, h2⟩ := invert_total ha
  exact .of_coh (runChain_coh _ (fun _ => .const _) _ _) h1 h2

theorem C52_legendre {a : Elem} (ha : f.Words a) :
    Outcome (fun pr => f.code.legendre pr a) f.Words := by
  obtain ⟨r, h1, h2⟩ := legendre_total ha
  exact .of_coh (runChain_coh _ (fun _ => .const _) _ _) h1 h2

theorem C52_quartic {a : Elem} (hf : f.code.quarticC.isSome = true) (ha : f.Words a) :
    Outcome (fun pr => f.code.quarticLegendre pr a) f.Words := by
  obtain ⟨r, h1, h2⟩ := quartic_total hf ha
  exact .of_coh (quartic_coh _ _) h1 h2

theorem C52_sqrt {a : Elem} (ha : f.Words a) :
    Outcome (fun pr => f.code.sqrt pr a) f.Words := by
  obtain ⟨r, h1, h2⟩ := sqrt_total ha
  exact .of_coh (runChain_coh _ (quartic_coh _) _ _) h1 h2

theorem C52_div {a b : Elem} (ha : f.Words a) (hb : f.Words b) :
    Outcome (fun pr => f.code.div pr a b) f.Words :=
  (C52_invert f hb).bind fun _ hi => C52_mul f ha hi

theorem IsBytes.isI64 {bs : List Int} (h : IsBytes bs) : ∀ x ∈ bs, IsI64 x := by
  intro x hx
  have := h x hx
  unfold IsI64; omega

theorem C52_unpack {a : Elem} {bs : List Int} (ha : f.Words a) (hb : IsBytes bs)
    (hl : f.nbytes ≤ bs.length) : Outcome (fun pr => f.code.unpack pr a bs) f.Words := by
  obtain ⟨r, h1, h2⟩ := runLimb_total (limb_oks f).2.2.1 f.nbytes_le ha hl hb.isI64
  exact .of_coh (runLimb_coh _ _ _ _) h1 h2

theorem words_zip {f : Fld} {a b : Elem} (ha : f.Words a) (hb : f.Words b) {g : Int → Int → Int}
    (hg : ∀ x y, IsI64 (g x y)) : f.Words (List.zipWith g a b) := by
  refine ⟨by rw [List.length_zipWith, ha.1, hb.1, min_self], fun x hx => ?_⟩
  obtain ⟨i, hi, rfl⟩ := List.getElem_of_mem hx
  rw [List.getElem_zipWith]
  exact hg _ _

theorem C52_bitand {a b : Elem} (ha : f.Words a) (hb : f.Words b) :
    Outcome (fun pr => f.code.normalizeBitand pr a b) fun r => f.Words r.1 ∧ f.Words r.2 :=
  (C52_normalize f hb).bind fun _ hb' => ((C52_normalize f ha).bind fun _ ha' =>
    Outcome.pure (words_zip ha' hb' fun _ _ => Check.wrap64_isI64 _)).bind fun _ hr =>
      .pure ⟨hr, hb'⟩

theorem C52_bitor {a b : Elem} (ha : f.Words a) (hb : f.Words b) :
    Outcome (fun pr => f.code.normalizeBitor pr a b) fun r => f.Words r.1 ∧ f.Words r.2 :=
  (C52_normalize f hb).bind fun _ hb' => ((C52_normalize f ha).bind fun _ ha' =>
    Outcome.pure (words_zip ha' hb' fun _ _ => Check.wrap64_isI64 _)).bind fun _ hr =>
      .pure ⟨hr, hb'⟩

theorem C52_normalize_eq {a b : Elem} (ha : f.Words a) (hb : f.Words b) :
    Outcome (fun pr => f.code.normalizeEq pr a b) fun r => f.Words r.1 ∧ f.Words r.2.1 :=
  (C52_normalize f hb).bind fun _ hb' => Outcome.bind (P := fun r => f.Words r.1)
    ((C52_normalize f ha).bind fun _ ha' => Outcome.pure ha') fun _ hr =>
      .pure ⟨hr, hb'⟩

/-! ### Packing, bits and formatting -/

set_option maxRecDepth 100000 in
theorem packP_bytes : Check.bytesP f.code.packP = true := by cases f <;> decide +kernel

/-- `pack_normalized` on a slice of at least `nbytes()` bytes. -/
theorem C52_pack_normalized {a : Elem} {bs : List Int} (ha : f.Words a) (hb : IsBytes bs)
    (hl : f.nbytes ≤ bs.length) :
    Outcome (fun pr => f.code.packNormalized pr a bs)
      fun r => r.length = bs.length ∧ IsBytes r := by
  obtain ⟨A, hA⟩ := Option.isSome_iff_exists.mp (limb_oks f).2.2.2
  have h0 := Check.initT_holds (k := f.k) (m := f.nbytes) ha.1.ge hl f.nbytes_le f.k_le ha.2
    hb.isI64
  obtain ⟨ρ, h1, -⟩ := Check.run_total _ h0 hA
  have hB : Check.HoldsBytes ρ := by
    refine Check.run_bytes _ _ (packP_bytes f) ?_ h1
    intro s x h2 h3 hx
    simp only [initEnv, Tree.get_setList, Tree.get_leaf] at hx
    split at hx
    · exact hb _ (List.mem_of_mem_take (List.mem_of_getElem? hx))
    · split at hx
      · have := f.k_le; have := ha.1; omega
      · cases hx
  refine .of_coh (r := readSlots ρ 16 (bs.take 112).length ++ bs.drop 112)
    ((Coh.runProg _ _).bind fun _ => .const _)
    (by simp only [packNormalized, h1, bind, Except.bind, pure, Except.pure]) ⟨?_, ?_⟩
  · rw [List.length_append, Check.readSlots_len, List.length_take, List.length_drop]
    omega
  · intro x hx
    rcases List.mem_append.mp hx with h | h
    · refine Check.readSlots_bytes hB _ _ le_rfl ?_ x h
      rw [List.length_take]; omega
    · exact hb x (List.mem_of_mem_drop h)

theorem C52_pack {a : Elem} {bs : List Int} (ha : f.Words a) (hb : IsBytes bs)
    (hl : f.nbytes ≤ bs.length) :
    Outcome (fun pr => f.code.pack pr a bs)
      fun r => f.Words r.1 ∧ r.2.length = bs.length ∧ IsBytes r.2 :=
  (C52_normalize f ha).bind fun _ ha' => (C52_pack_normalized f ha' hb hl).bind fun _ hr =>
    .pure ⟨ha', hr⟩

theorem C52_packed {a : Elem} (ha : f.Words a) :
    Outcome (fun pr => f.code.packed pr a)
      fun r => f.Words r.1 ∧ r.2.length = f.nbytes ∧ IsBytes r.2 := by
  have h := C52_pack f ha (bs := List.replicate f.nbytes 0)
    (fun x hx => by rw [List.eq_of_mem_replicate hx]; exact ⟨le_rfl, by norm_num⟩)
    (by rw [List.length_replicate])
  simp only [List.length_replicate] at h
  unfold packed
  rw [f.codeNbytes_eq]
  exact h

/-- `{:x}` and `{:X}` print `2 * nbytes()` characters. -/
theorem C52_hex (upper : Bool) {a : Elem} (ha : f.Words a) :
    Outcome (fun pr => f.code.fmtHex pr upper a) fun s => s.length = 2 * f.nbytes := by
  refine (C52_packed f ha).bind fun r hr => .pure ?_
  rw [List.length_flatten, List.map_map]
  have : (List.length ∘ hexByte upper) = fun _ => 2 := by funext x; rfl
  rw [this, List.map_const', List.sum_replicate, List.length_reverse, hr.2.1]
  simp [mul_comm]

/-- `bit(idx)` for an index inside the words. -/
theorem C52_bit {a : Elem} {idx : Nat} (ha : f.Words a) (hi : idx < f.L * f.k) :
    Outcome (fun pr => f.code.bit pr a idx) fun r => f.Words r.1 := by
  refine (C52_normalize f ha).bind fun x hx => ?_
  have hL : 0 < f.L := by rcases Nat.eq_zero_or_pos f.L with h | h
                          · rw [h, zero_mul] at hi; omega
                          · exact h
  have hk : idx / f.code.limbBits < x.length := by
    rw [f.limbBits_eq, hx.1]; exact Nat.div_lt_of_lt_mul hi
  exact Outcome.bind (P := fun _ => True)
    (.const (r := decide (and64 (shr64 x[idx / f.code.limbBits] (idx % f.code.limbBits)) 1 = 1))
      (by simp only [bitNormalized, List.getElem?_eq_getElem hk]) trivial) fun _ _ => .pure hx

/-! ### Whole computations -/

/-- Computations starting from arbitrary words. -/
inductive ExW where
  | words (a : Elem) | bytes (bs : List Int) | rand (rng : Nat → Int → Int)
  | add (a b : ExW) | sub (a b : ExW) | mul (a b : ExW) | div (a b : ExW)
  | bitand (a b : ExW) | bitor (a b : ExW)
  | addI (a : ExW) (n : Int) | subI (a : ExW) (n : Int) | mulI (a : ExW) (n : Int)
  | square (a : ExW) | normalize (a : ExW) | neg (a : ExW)
  | invert (a : ExW) | legendre (a : ExW) | sqrt (a : ExW)

/-- Run a computation with the code of the field type. -/
def ExW.exec (pr : Profile) : ExW → Res Elem
  | words a => .ok a
  | bytes bs => f.code.unpacked pr bs
  | rand rng => .ok (f.code.rand rng)
  | add a b => do f.code.add pr (← exec pr a) (← exec pr b)
  | sub a b => do f.code.sub pr (← exec pr a) (← exec pr b)
  | mul a b => do f.code.mul pr (← exec pr a) (← exec pr b)
  | div a b => do f.code.div pr (← exec pr a) (← exec pr b)
  | bitand a b => do return (← f.code.normalizeBitand pr (← exec pr a) (← exec pr b)).1
  | bitor a b => do return (← f.code.normalizeBitor pr (← exec pr a) (← exec pr b)).1
  | addI a n => do f.code.smallAdd pr (← exec pr a) n
  | subI a n => do f.code.smallSub pr (← exec pr a) n
  | mulI a n => do f.code.smallMul pr (← exec pr a) n
  | square a => do f.code.squared pr (← exec pr a)
  | normalize a => do f.code.normalize pr (← exec pr a)
  | neg a => do f.code.neg pr (← exec pr a)
  | invert a => do f.code.inverted pr (← exec pr a)
  | legendre a => do f.code.legendre pr (← exec pr a)
  | sqrt a => do f.code.sqrt pr (← exec pr a)

/-- The inputs have the Rust types. -/
def ExW.Typed : ExW → Prop
  | words a => f.Words a
  | bytes bs => IsBytes bs ∧ f.nbytes ≤ bs.length
  | rand rng => IsRng rng
  | add a b | sub a b | mul a b | div a b | bitand a b | bitor a b => a.Typed ∧ b.Typed
  | addI a n | subI a n | mulI a n => a.Typed ∧ IsI32 n
  | square a | normalize a | neg a | invert a | legendre a | sqrt a => a.Typed

theorem Canon.words {x : Int} {a : Elem} (h : f.Canon x a) : f.Words a := by
  obtain ⟨⟨low, top, rfl, hl, hd, h1, h2⟩, -⟩ := h
  refine ⟨by rw [List.length_append, hl]; exact f.k_sub, fun y hy => ?_⟩
  have hL : (2 : Int) ^ f.L ≤ 2 ^ 62 := pow_le_pow_right₀ (by norm_num) (by cases f <;> decide)
  have ht : (2 : Int) ^ f.tb ≤ 2 ^ 62 :=
    pow_le_pow_right₀ (by norm_num) (by have := f.tb_lt; omega)
  unfold IsI64
  rcases List.mem_append.mp hy with h | h
  · have := hd y h
    omega
  · rw [List.mem_singleton] at h; subst h
    omega

/-- Any computation, from any words: a release build does not panic, and a debug build gives the
same words or panics because of an integer overflow. -/
theorem C52_computation (e : ExW) (h : e.Typed f) : Outcome (fun pr => e.exec f pr) f.Words := by
  induction e with
  | words a => exact .pure h
  | bytes bs => exact C52_unpack f (consts_words f).1 h.1 h.2
  | rand rng => exact .pure (Canon.words f (C24_rand_canonical f h))
  | add a b iha ihb => exact (iha h.1).bind fun _ ha => (ihb h.2).bind fun _ hb => C52_add f ha hb
  | sub a b iha ihb => exact (iha h.1).bind fun _ ha => (ihb h.2).bind fun _ hb => C52_sub f ha hb
  | mul a b iha ihb => exact (iha h.1).bind fun _ ha => (ihb h.2).bind fun _ hb => C52_mul f ha hb
  | div a b iha ihb => exact (iha h.1).bind fun _ ha => (ihb h.2).bind fun _ hb => C52_div f ha hb
  | bitand a b iha ihb =>
    exact (iha h.1).bind fun _ ha => (ihb h.2).bind fun _ hb =>
      (C52_bitand f ha hb).bind fun _ hr => .pure hr.1
  | bitor a b iha ihb =>
    exact (iha h.1).bind fun _ ha => (ihb h.2).bind fun _ hb =>
      (C52_bitor f ha hb).bind fun _ hr => .pure hr.1
  | addI a n iha => exact (iha h.1).bind fun _ ha => C52_small_add f ha h.2
  | subI a n iha => exact (iha h.1).bind fun _ ha => C52_small_sub f ha h.2
  | mulI a n iha => exact (iha h.1).bind fun _ ha => C52_small_mul f ha h.2
  | square a iha => exact (iha h).bind fun _ ha => C52_square f ha
  | normalize a iha => exact (iha h).bind fun _ ha => C52_normalize f ha
  | neg a iha => exact (iha h).bind fun _ ha => C52_neg f ha
  | invert a iha => exact (iha h).bind fun _ ha => C52_invert f ha
  | legendre a iha => exact (iha h).bind fun _ ha => C52_legendre f ha
  | sqrt a iha => exact (iha h).bind fun _ ha => C52_sqrt f ha

/-- The extreme words. -/
example : Fld.e251_9.Words [-2 ^ 63, 2 ^ 63 - 1, -1, 0, 2 ^ 63 - 1] ∧
    Fld.e251_9.code.add .debug [-2 ^ 63, 2 ^ 63 - 1, -1, 0, 2 ^ 63 - 1]
      [-2 ^ 63, 2 ^ 63 - 1, -1, 0, 2 ^ 63 - 1] = .error .overflow :=
  ⟨Fld.words_of_wordsB (by decide), by decide +kernel⟩

/-! ### Points -/

/-- Four values of the Rust type of scalars. -/
def Fld.PointWords (p : EdwardsExtended Elem) : Prop :=
  f.Words p.x ∧ f.Words p.y ∧ f.Words p.z ∧ f.Words p.t

/-- All registers read are among the first `n`, and assignments are to these or the next one. -/
def okPE (n : Nat) : PExpr → Bool
  | .get r => decide (r < n)
  | .dval => true
  | .add a b | .sub a b | .mul a b => okPE n a && okPE n b
  | .squared a => okPE n a
  | .smallMul a k => okPE n a && decide (k < 2147483648)

def okPP : PProg → Nat → Bool
  | [], _ => true
  | .set r e :: rest, n => okPE n e && decide (r ≤ n) && okPP rest (max n (r + 1))

def RegsHold (n : Nat) (ρ : Tree Elem) : Prop := ∀ r < n, ∃ v, ρ.get r = some v ∧ f.Words v

theorem evalPE_out {d : Elem} (hd : f.Words d) {n : Nat} {ρ : Tree Elem} (h : RegsHold f n ρ)
    (e : PExpr) (he : okPE n e = true) :
    Outcome (fun pr => e.eval (f.code.scalar pr d) ρ) f.Words := by
  induction e with
  | get r =>
    simp only [okPE, decide_eq_true_eq] at he
    obtain ⟨v, h1, h2⟩ := h r he
    exact .const (by simp only [h1]) h2
  | dval => exact .pure hd
  | add a b iha ihb =>
    simp only [okPE, Bool.and_eq_true] at he
    exact (iha he.1).bind fun _ ha => (ihb he.2).bind fun _ hb => C52_add f ha hb
  | sub a b iha ihb =>
    simp only [okPE, Bool.and_eq_true] at he
    exact (iha he.1).bind fun _ ha => (ihb he.2).bind fun _ hb => C52_sub f ha hb
  | mul a b iha ihb =>
    simp only [okPE, Bool.and_eq_true] at he
    exact (iha he.1).bind fun _ ha => (ihb he.2).bind fun _ hb => C52_mul f ha hb
  | squared a iha => exact (iha he).bind fun _ ha => C52_square f ha
  | smallMul a k iha =>
    simp only [okPE, Bool.and_eq_true, decide_eq_true_eq] at he
    exact (iha he.1).bind fun _ ha => C52_small_mul f ha (by unfold IsI32; omega)

theorem runPoint_out {d : Elem} (hd : f.Words d) (P : PProg) : ∀ {n : Nat} {ρ : Tree Elem},
    RegsHold f n ρ → okPP P n = true →
    Outcome (fun pr => runPoint (f.code.scalar pr d) P ρ) fun ρ' => RegsHold f n ρ' := by
  induction P with
  | nil => intro n ρ h _; exact .pure h
  | cons st P ih =>
    intro n ρ h hP
    obtain ⟨r, e⟩ := st
    simp only [okPP, Bool.and_eq_true, decide_eq_true_eq] at hP
    refine (evalPE_out f hd h e hP.1.1).bind fun v hv => ?_
    refine (ih (n := max n (r + 1)) ?_ hP.2).mono fun ρ' h' s hs => h' s (by omega)
    intro s hs
    by_cases e : s = r
    · subst e; exact ⟨v, Tree.get_set_self _ _ _, hv⟩
    · rw [Tree.get_set_ne _ _ e]
      exact h s (by omega)

theorem call_out {d : Elem} (hd : f.Words d) {P : PProg} (hP : okPP P 8 = true)
    {p q : EdwardsExtended Elem} (hp : f.PointWords p) (hq : f.PointWords q) :
    Outcome (fun pr => EdwardsExtended.call (f.code.scalar pr d) P p q) f.PointWords := by
  refine (runPoint_out f hd P (n := 8) (ρ := EdwardsExtended.regs p q) ?_ hP).bind fun ρ h => ?_
  · intro r hr
    unfold EdwardsExtended.regs
    rw [Tree.get_setList]
    obtain ⟨h1, h2, h3, h4⟩ := hp
    obtain ⟨h5, h6, h7, h8⟩ := hq
    interval_cases r <;> exact ⟨_, rfl, by assumption⟩
  · obtain ⟨x, h1, h2⟩ := h 0 (by omega)
    obtain ⟨y, h3, h4⟩ := h 1 (by omega)
    obtain ⟨z, h5, h6⟩ := h 2 (by omega)
    obtain ⟨t, h7, h8⟩ := h 3 (by omega)
    exact .const (r := ⟨x, y, z, t⟩) (by simp only [EdwardsExtended.ofRegs, h1, h3, h5, h7])
      ⟨h2, h4, h6, h8⟩

theorem C52_point_add {d : Elem} (hd : f.Words d) {p q : EdwardsExtended Elem}
    (hp : f.PointWords p) (hq : f.PointWords q) :
    Outcome (fun pr => p.addAssign (f.code.scalar pr d) q) f.PointWords :=
  call_out f hd (by decide) hp hq

theorem C52_point_double {d : Elem} (hd : f.Words d) {p : EdwardsExtended Elem}
    (hp : f.PointWords p) :
    Outcome (fun pr => p.double (f.code.scalar pr d)) f.PointWords :=
  call_out f hd (by decide) hp hp

theorem C52_point_triple {d : Elem} (hd : f.Words d) {p : EdwardsExtended Elem}
    (hp : f.PointWords p) :
    Outcome (fun pr => p.triple (f.code.scalar pr d)) f.PointWords :=
  call_out f hd (by decide) hp hp

/-! ### The ladder -/

structure LadderWords (s : Ladder Elem) : Prop where
  r0 : f.PointWords s.r0
  r1 : f.PointWords s.r1
  d0 : f.PointWords s.d0
  d1 : f.PointWords s.d1
  tmask : f.Words s.tmask
  fmask : f.Words s.fmask
  idx : s.idx < f.n

variable {f}

theorem LadderWords.get {s : Ladder Elem} (h : LadderWords f s) (v : LVar) :
    f.PointWords (s.get v) := by
  cases v
  exacts [h.r0, h.r1, h.d0, h.d1]

theorem LadderWords.set {s : Ladder Elem} (h : LadderWords f s) (v : LVar)
    {p : EdwardsExtended Elem} (hp : f.PointWords p) : LadderWords f (s.set v p) := by
  cases v
  · exact ⟨hp, h.r1, h.d0, h.d1, h.tmask, h.fmask, h.idx⟩
  · exact ⟨h.r0, hp, h.d0, h.d1, h.tmask, h.fmask, h.idx⟩
  · exact ⟨h.r0, h.r1, hp, h.d1, h.tmask, h.fmask, h.idx⟩
  · exact ⟨h.r0, h.r1, h.d0, hp, h.tmask, h.fmask, h.idx⟩

theorem LadderWords.mask {s : Ladder Elem} (h : LadderWords f s) (m : LMask) :
    f.Words (s.mask m) := by
  cases m
  exacts [h.tmask, h.fmask]

theorem LadderWords.setMask {s : Ladder Elem} (h : LadderWords f s) (m : LMask)
    {a : Elem} (ha : f.Words a) : LadderWords f (s.setMask m a) := by
  cases m
  · exact ⟨h.r0, h.r1, h.d0, h.d1, ha, h.fmask, h.idx⟩
  · exact ⟨h.r0, h.r1, h.d0, h.d1, h.tmask, ha, h.idx⟩

variable (f)

theorem filled_words (b : Bool) : f.Words (f.code.filled b) := by
  refine ⟨by rw [filled, List.length_replicate, f.limbs_eq], fun x hx => ?_⟩
  rw [List.eq_of_mem_replicate hx]
  exact Check.wrap64_isI64 _

theorem n_lt : f.n < f.L * f.k := by cases f <;> decide

theorem ladder_exec_out {d k : Elem} (hd : f.Words d) (hk : f.Words k) (i : Nat) (st : LStmt) :
    ∀ {s : Ladder Elem}, LadderWords f s →
    Outcome (fun pr => Ladder.exec (f.code.scalar pr d) k i s st) fun r => LadderWords f r.1 := by
  induction st with
  | letIdx =>
    intro s h
    refine .pure ⟨h.r0, h.r1, h.d0, h.d1, h.tmask, h.fmask, ?_⟩
    change f.code.nbits - 1 - i < f.n
    have : 0 < f.n := by clear hd hk h; cases f <;> decide
    rw [f.codeNbits_eq]; omega
  | letBit =>
    intro s h
    have hlt := n_lt f
    have hk' : s.idx / f.code.limbBits < k.length := by
      rw [f.limbBits_eq, hk.1]
      exact Nat.div_lt_of_lt_mul (by have := h.idx; omega)
    exact Outcome.bind (P := fun _ => True)
      (.const (r := decide (and64 (shr64 k[s.idx / f.code.limbBits] (s.idx % f.code.limbBits)) 1 = 1))
        (by simp only [List.getElem?_eq_getElem hk']) trivial)
      fun _ _ => .pure ⟨h.r0, h.r1, h.d0, h.d1, h.tmask, h.fmask, h.idx⟩
  | letMask m neg => intro s h; exact .pure (h.setMask m (filled_words f _))
  | copy x y => intro s h; exact .pure (h.set x (h.get y))
  | addAssign x y =>
    intro s h
    exact (C52_point_add f hd (h.get x) (h.get y)).bind fun p hp => .pure (h.set x hp)
  | bitand x m =>
    intro s h
    obtain ⟨h1, h2, h3, h4⟩ := h.get x
    have hz : ∀ a, f.Words a → f.Words (normalizedBitand a (s.mask m)) := fun a ha =>
      words_zip ha (h.mask m) fun _ _ => Check.wrap64_isI64 _
    exact .pure (h.set x ⟨hz _ h1, hz _ h2, hz _ h3, hz _ h4⟩)
  | bitor x y =>
    intro s h
    obtain ⟨h1, h2, h3, h4⟩ := h.get x
    obtain ⟨h5, h6, h7, h8⟩ := h.get y
    have hz : ∀ a b, f.Words a → f.Words b → f.Words (normalizedBitor a b) := fun a b ha hb =>
      words_zip ha hb fun _ _ => Check.wrap64_isI64 _
    exact .pure (h.set x ⟨hz _ _ h1 h5, hz _ _ h2 h6, hz _ _ h3 h7, hz _ _ h4 h8⟩)
  | double x =>
    intro s h
    exact (C52_point_double f hd (h.get x)).bind fun p hp => .pure (h.set x hp)
  | ifBit a b iha ihb =>
    intro s h
    simp only [Ladder.exec]
    cases s.bit
    · exact ihb h
    · exact iha h

theorem ladder_execAll_out {d k : Elem} (hd : f.Words d) (hk : f.Words k) (i : Nat)
    (l : List LStmt) : ∀ {s : Ladder Elem}, LadderWords f s →
    Outcome (fun pr => Ladder.execAll (f.code.scalar pr d) k i l s) fun r => LadderWords f r.1 := by
  induction l with
  | nil => intro s h; exact .pure h
  | cons a l ih =>
    intro s h
    exact (ladder_exec_out f hd hk i a h).bind fun r hr => (ih hr).bind fun r' hr' => .pure hr'

theorem ladder_loop_out {d k : Elem} (hd : f.Words d) (hk : f.Words k) (l : List LStmt) (n : Nat) :
    ∀ {i : Nat} {s : Ladder Elem}, LadderWords f s →
    Outcome (fun pr => Ladder.loop (f.code.scalar pr d) k l n i s) fun r => LadderWords f r.1 := by
  induction n with
  | zero => intro i s h; exact .pure h
  | succ n ih =>
    intro i s h
    exact (ladder_execAll_out f hd hk i l h).bind fun r hr => (ih hr).bind fun r' hr' => .pure hr'

/-- The ladder, on any words. -/
theorem C52_scalar_mult {d k : Elem} (hd : f.Words d) (hk : f.Words k)
    {p : EdwardsExtended Elem} (hp : f.PointWords p) :
    Outcome (fun pr => p.scalarMult (f.code.scalar pr d) k)
      fun r => f.PointWords r.1 ∧ f.Words r.2 := by
  obtain ⟨hz, ho, -⟩ := consts_words f
  have h0 : f.PointWords ⟨f.code.ZERO, f.code.ONE, f.code.ONE, f.code.ONE⟩ := ⟨hz, ho, ho, ho⟩
  refine (C52_normalize f hk).bind fun k' hk' => ?_
  refine Outcome.bind (P := f.PointWords) ?_ fun r hr => .pure ⟨hr, hk'⟩
  refine Outcome.bind (P := fun r => f.PointWords r.1) ?_ fun r hr => .pure hr
  refine (ladder_loop_out f hd hk' Ladder.body _ (i := 0) (s := ⟨_, p, _, p, 0, false, _, _⟩)
    ⟨h0, hp, h0, hp, filled_words f false, filled_words f false, ?_⟩).bind fun r hr => .pure hr.r0
  change 0 < f.n
  clear hd hk hp hz ho h0 hk'
  cases f <;> decide

/-- A point and a scalar with extreme words; a debug build panics. -/
example : Fld.e251_9.PointWords ⟨List.replicate 5 (2 ^ 63 - 1), List.replicate 5 (-2 ^ 63),
    List.replicate 5 0, List.replicate 5 (-1)⟩ ∧
    (EdwardsExtended.double (curve1174 .debug) ⟨List.replicate 5 (2 ^ 63 - 1),
      List.replicate 5 (-2 ^ 63), List.replicate 5 0, List.replicate 5 (-1)⟩) = .error .overflow :=
  ⟨⟨Fld.words_of_wordsB (by decide), Fld.words_of_wordsB (by decide),
    Fld.words_of_wordsB (by decide), Fld.words_of_wordsB (by decide)⟩, by decide +kernel⟩

end Verif
