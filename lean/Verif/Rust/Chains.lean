import Verif.Rust.ChainFns

/-!
# Inversion, Legendre symbols and square roots

What interpreting the text of `invert`, `inverted`, `legendre`, `quartic_legendre` and `sqrt`
computes, and the division operators.
-/

namespace Verif.Rust

open Limb Chn

variable {P : Program} {f : Fld} (h : Has P f) (w : World)

theorem noQ_chains (f : Fld) : noQ f.code.invertC = true ∧ noQ f.code.legendreC = true ∧
    (∀ c, f.code.quarticC = some c → noQ c = true ∧ keeps c.dropLast = true) ∧
    keeps f.code.legendreC.dropLast = true ∧ keeps f.code.sqrtC.dropLast = true ∧
    (f.code.quarticC = none → noQ f.code.sqrtC = true) := by
  cases f <;> refine ⟨by decide +kernel, by decide +kernel, ?_, by decide +kernel, by decide +kernel, ?_⟩ <;>
    first
    | (intro c hc; obtain rfl := Option.some.inj hc; decide +kernel)
    | (intro c hc; cases hc)
    | (intro _; decide +kernel)
    | (intro hc; cases hc; done)

include h in
theorem run_invert {n : Nat} (hn : 4 ≤ n) {a : List Int} (ha : a.length = f.code.limbs) :
    run P w n (methF f (id! "invert")) [.ref (elem (tyId f) a)] =
      (lift (f.code.invert w.pr a) >>= fun r => .ok (.unit, [.ref (elem (tyId f) r)])) := by
  obtain ⟨h1, h2, h3, h4⟩ := chain_invert f
  exact (run_chain_mut h hn h1 h2 h3 h4 (noQ_chains f).1 _ ha).1

include h in
theorem invert_length (w : World) {a r : List Int} (ha : a.length = f.code.limbs)
    (hr : f.code.invert w.pr a = .ok r) : r.length = f.code.limbs := by
  obtain ⟨h1, h2, h3, h4⟩ := chain_invert f
  exact (run_chain_mut h (w := w) (Nat.le_refl 4) h1 h2 h3 h4 (noQ_chains f).1 _ ha).2 r hr

include h in
theorem run_legendre {n : Nat} (hn : 4 ≤ n) {a : List Int} (ha : a.length = f.code.limbs) :
    run P w n (methF f (id! "legendre")) [.ref (elem (tyId f) a)] =
      (lift (f.code.legendre w.pr a) >>= fun r =>
        .ok (elem (tyId f) r, [.ref (elem (tyId f) a)])) := by
  obtain ⟨h1, h2, h3⟩ := chain_legendre f
  obtain ⟨_, k1, _, k2, _⟩ := noQ_chains f
  exact (run_chain_ref h hn h1 h2 h3 k2 (.inl k1) ha).1

include h in
theorem quartic_call {n : Nat} (hn : 4 ≤ n) (hq : f.code.quarticC.isSome = true) :
    Quartic P f w n (f.code.quarticLegendre w.pr) := by
  obtain ⟨h0, h1, h2, h3⟩ := chain_quartic f hq
  obtain ⟨c, hc⟩ := Option.isSome_iff_exists.1 hq
  obtain ⟨k1, k2⟩ := (noQ_chains f).2.2.1 c hc
  have e : ∀ a, f.code.quarticLegendre w.pr a = f.code.runChain w.pr FieldCode.noQuartic c a := fun a => by
    rw [FieldCode.quarticLegendre, hc]
  have k := fun a (ha : a.length = f.code.limbs) => run_chain_ref h (w := w) hn h1 h2 (h3.trans hc) k2
    (q := FieldCode.noQuartic) (.inl k1) (a := a) ha
  refine ⟨⟨_, find_method h h0, h1, h2, fun a ha => ?_⟩, fun a r ha hr => ?_⟩
  · rw [e]; exact (k a ha).1
  · rw [e] at hr; exact (k a ha).2 r hr

include h in
theorem run_quartic {n : Nat} (hn : 4 ≤ n) (hq : f.code.quarticC.isSome = true) {a : List Int}
    (ha : a.length = f.code.limbs) :
    run P w n (methF f (id! "quartic_legendre")) [.ref (elem (tyId f) a)] =
      (lift (f.code.quarticLegendre w.pr a) >>= fun r =>
        .ok (elem (tyId f) r, [.ref (elem (tyId f) a)])) := by
  obtain ⟨⟨fn, h1, _, _, h2⟩, _⟩ := quartic_call h w hn hq
  rw [find_method h (chain_quartic f hq).1] at h1
  rw [Option.some.inj h1]
  exact h2 a ha

include h in
theorem run_sqrt {n : Nat} (hn : 5 ≤ n) {a : List Int} (ha : a.length = f.code.limbs) :
    run P w n (methF f (id! "sqrt")) [.ref (elem (tyId f) a)] =
      (lift (f.code.sqrt w.pr a) >>= fun r =>
        .ok (elem (tyId f) r, [.ref (elem (tyId f) a)])) := by
  obtain ⟨h1, h2, h3⟩ := chain_sqrt f
  obtain ⟨_, _, _, _, k2, k3⟩ := noQ_chains f
  refine (run_chain_ref h (by omega) h1 h2 h3 k2 ?_ ha).1
  cases hq : f.code.quarticC with
  | none => exact .inl (k3 hq)
  | some c => exact .inr (quartic_call h w (by omega) (by rw [hq]; rfl))

/-! ### `inverted` and division -/

theorem fn_inverted (f : Fld) : methF f (id! "inverted") =
    mkFn (tyId f) (id! "inverted") .ref [] (tyV (tyId f)) (rust_block% r"
        let mut out = self.clone();

        out.invert();

        out
    ") := by
  cases f <;> decide +kernel

@[simp] theorem recv_invert (f : Fld) : (methF f (id! "invert")).recv = .mut := (chain_invert f).1
@[simp] theorem muts_invert (f : Fld) :
    (methF f (id! "invert")).params.map (·.2.isMut) = [] := by rw [(chain_invert f).2.1]; rfl
@[simp] theorem recv_inverted (f : Fld) : (methF f (id! "inverted")).recv = .ref := by rw [fn_inverted]
@[simp] theorem muts_inverted (f : Fld) :
    (methF f (id! "inverted")).params.map (·.2.isMut) = [] := by rw [fn_inverted]; rfl

include h in
theorem run_inverted {n : Nat} (hn : 5 ≤ n) {a : List Int} (ha : a.length = f.code.limbs) :
    run P w n (methF f (id! "inverted")) [.ref (elem (tyId f) a)] =
      (lift (f.code.inverted w.pr a) >>= fun r =>
        .ok (elem (tyId f) r, [.ref (elem (tyId f) a)])) := by
  obtain ⟨n, rfl⟩ := Nat.exists_eq_add_of_le' (show 1 ≤ n by omega)
  rw [run_succ, fn_inverted, FieldCode.inverted]
  interp [method_eq h (m := id! "invert") (by decide), run_invert h w (n := n) (by omega) ha]

include h in
theorem assignRef_div : AssignRef P f w .div 6 (f.code.divAssign w.pr) := by
  refine ⟨by decide, fun {n} hn a b ha hb => ?_⟩
  obtain ⟨n, rfl⟩ := Nat.exists_eq_add_of_le' (show 1 ≤ n by omega)
  have e := opF_eq f ⟨.div, true, .val, .ref, .mulInverted⟩ (by decide) nofun
  dsimp only at e
  rw [run_succ, opG, e, FieldCode.divAssign]
  have h5 := run_inverted h w (n := n) (by omega) hb
  have h1 := (assignRef_mul h w).find h
  have h2 := (assignRef_mul h w).sig.1
  have h3 := (assignRef_mul h w).sig.2
  simp only [opG, opId, opT_val, opT_ref] at h1 h2 h3
  have h6 := method_eq h (m := id! "inverted") (by decide)
  interp [opFnOf, opText, h1, h2, h3, h5, h6]
  cases hx : f.code.inverted w.pr b with
  | error e => rfl
  | ok r =>
    have h4 := (assignRef_mul h w).call (n := n) (by omega) ha (invert_length h w hb hx)
    simp only [opG, opId, opT_val, opT_ref] at h4
    interp [h4]

/-! ### All operators -/

/-- An operand as a value. -/
def argV (f : Fld) : OpTy → OpVal → Val
  | .ref, .elem a => .ref (elem (tyId f) a)
  | _, .elem a => elem (tyId f) a
  | .i16, .int n => .int (some .i16) n
  | .i8, .int n => .int (some .i8) n
  | _, .int n => .int (some .i32) n

/-- The left operand, which an assigning operator borrows. -/
def lhsV (f : Fld) (assign : Bool) (l : OpTy) (x : OpVal) : Val :=
  if assign then argV f .ref x else argV f l x

/-- Elements have the number of words of the type. -/
def OpVal.Fits (f : Fld) : OpVal → Prop
  | .elem a => a.length = f.code.limbs
  | .int _ => True

include h in
/-- Interpreting the text of an operator impl computes the operation. -/
theorem run_op {n : Nat} (hn : 8 ≤ n) {o : OpKind} {assign : Bool} {l r : OpTy}
    (he : opExists o assign l r = true) {x y : OpVal} (hx : x.HasType l) (hy : y.HasType r)
    (kx : OpVal.Fits f x) (ky : OpVal.Fits f y) :
    run P w n (opG f o assign l r) [lhsV f assign l x, argV f r y] =
      (lift (opSpec f.code w.pr o x y) >>= fun z =>
        .ok (if assign then .unit else elem (tyId f) z,
          [lhsV f assign l (if assign then .elem z else x), argV f r y])) := by
  have A := assignRef_add h w
  have S := assignRef_sub h w
  have M := assignRef_mul h w
  have D := assignRef_div h w
  have key : ∀ o k g, AssignRef P f w o k g → k ≤ 6 → ∀ a b : List Int,
      a.length = f.code.limbs → b.length = f.code.limbs → ∀ assign l r,
      (assign, l, r) ∈ [(true, OpTy.val, OpTy.val), (true, .val, .ref), (false, .val, .val),
        (false, .ref, .ref)] →
      run P w n (opG f o assign l r) [lhsV f assign l (.elem a), argV f r (.elem b)] =
        (lift (g a b) >>= fun z => .ok (if assign then .unit else elem (tyId f) z,
          [lhsV f assign l (if assign then .elem z else .elem a), argV f r (.elem b)])) := by
    intro o k g H hk a b ha hb assign l r hm
    simp only [List.mem_cons, Prod.mk.injEq, List.not_mem_nil, or_false] at hm
    have m1 : (⟨o, true, .val, .val, .assignRef o⟩ : OpImpl) ∈ opTable := by cases o <;> decide
    have m2 : (⟨o, false, .ref, .ref, .cloneAssign o⟩ : OpImpl) ∈ opTable := by cases o <;> decide
    have m3 : (⟨o, false, .val, .val, .refRef o⟩ : OpImpl) ∈ opTable := by cases o <;> decide
    rcases hm with ⟨rfl, rfl, rfl⟩ | ⟨rfl, rfl, rfl⟩ | ⟨rfl, rfl, rfl⟩ | ⟨rfl, rfl, rfl⟩
    · exact H.run_assignRef h w m1 rfl (by omega) ha hb
    · exact H.call (by omega) ha hb
    · exact H.run_refRef h w m3 m2 rfl rfl (by omega) ha hb
    · exact H.run_cloneAssign h w m2 rfl (by omega) ha hb
  have small : ∀ o, o ≠ OpKind.div → ∀ (a : List Int) (z : Int), a.length = f.code.limbs →
      ∀ assign l r, assign = true ∧ l = OpTy.val ∨ assign = false ∧ (l = .val ∨ l = .ref) →
      r = .i32 ∨ r = .i16 ∨ r = .i8 →
      run P w n (opG f o assign l r) [lhsV f assign l (.elem a), argV f r (.int z)] =
        (lift (smallG f w o a z) >>= fun z' => .ok (if assign then .unit else elem (tyId f) z',
          [lhsV f assign l (if assign then .elem z' else .elem a), argV f r (.int z)])) := by
    intro o ho a z ha assign l r h1 h2
    have m : ∀ q ∈ [(OpTy.i32, false), (.i16, true), (.i8, true)],
        (⟨o, true, .val, q.1, .smallAssign o q.2⟩ : OpImpl) ∈ opTable ∧
        (⟨o, false, .ref, q.1, .smallSelf o q.2⟩ : OpImpl) ∈ opTable ∧
        (⟨o, false, .val, q.1, .refVal o⟩ : OpImpl) ∈ opTable := by
      cases o <;> first | exact absurd rfl ho | decide
    obtain ⟨t, b, h3, h4, h5, h6⟩ : ∃ t b, (t = IntTy.i32 ∧ b = false ∨ (t = .i16 ∨ t = .i8) ∧ b = true) ∧
        opT f r = (false, t.id) ∧ argV f r (.int z) = .int (some t) z ∧
        (r, b) ∈ [(OpTy.i32, false), (.i16, true), (.i8, true)] := by
      rcases h2 with rfl | rfl | rfl
      · exact ⟨.i32, false, .inl ⟨rfl, rfl⟩, rfl, rfl, by decide⟩
      · exact ⟨.i16, true, .inr ⟨.inl rfl, rfl⟩, rfl, rfl, by decide⟩
      · exact ⟨.i8, true, .inr ⟨.inr rfl, rfl⟩, rfl, rfl, by decide⟩
    obtain ⟨m1, m2, m3⟩ := m _ h6
    rw [h5]
    rcases h1 with ⟨rfl, rfl⟩ | ⟨rfl, rfl | rfl⟩
    · exact run_smallAssign h w m1 ho h3 rfl (by omega) ha z
    · exact run_refVal h w m3 m2 ho h4 h3 rfl rfl (by omega) ha z
    · exact run_smallSelf h w m2 ho h3 rfl (by omega) ha z
  have arg : ∀ o, o = .add ∨ o = OpKind.mul → ∀ (a : List Int) (z : Int), a.length = f.code.limbs →
      ∀ l, l = .i32 ∨ l = .i16 ∨ l = .i8 →
      run P w n (opG f o false l .ref) [argV f l (.int z), argV f .ref (.elem a)] =
        (lift (smallG f w o a z) >>= fun z' => .ok (elem (tyId f) z',
          [argV f l (.int z), argV f .ref (.elem a)])) := by
    intro o ho a z ha l h2
    have ho' : o ≠ .div := by rintro rfl; rcases ho with h | h <;> cases h
    have m : ∀ q ∈ [(OpTy.i32, false), (.i16, true), (.i8, true)],
        (⟨o, false, q.1, .ref, .smallArg o q.2⟩ : OpImpl) ∈ opTable := by
      rcases ho with rfl | rfl <;> decide
    obtain ⟨t, b, h3, h5, h6⟩ : ∃ t b, (t = IntTy.i32 ∧ b = false ∨ (t = .i16 ∨ t = .i8) ∧ b = true) ∧
        argV f l (.int z) = .int (some t) z ∧
        (l, b) ∈ [(OpTy.i32, false), (.i16, true), (.i8, true)] := by
      rcases h2 with rfl | rfl | rfl
      · exact ⟨.i32, false, .inl ⟨rfl, rfl⟩, rfl, by decide⟩
      · exact ⟨.i16, true, .inr ⟨.inl rfl, rfl⟩, rfl, by decide⟩
      · exact ⟨.i8, true, .inr ⟨.inr rfl, rfl⟩, rfl, by decide⟩
    rw [h5]
    exact run_smallArg h w (m _ h6) ho' h3 rfl (by omega) ha z
  cases x with
  | elem a =>
    cases y with
    | elem b =>
      have hm : (assign, l, r) ∈ [(true, OpTy.val, OpTy.val), (true, .val, .ref), (false, .val, .val),
          (false, .ref, .ref)] := by
        cases assign <;> cases l <;> cases r <;> first
          | exact hx.elim
          | exact hy.elim
          | decide
          | cases he
      cases o with
      | add => exact key _ _ _ A (by omega) a b kx ky _ _ _ hm
      | sub => exact key _ _ _ S (by omega) a b kx ky _ _ _ hm
      | mul => exact key _ _ _ M (by omega) a b kx ky _ _ _ hm
      | div => exact key _ _ _ D (by omega) a b kx ky _ _ _ hm
    | int z =>
      have ho : o ≠ .div := by
        rintro rfl
        cases assign <;> cases l <;> cases r <;> first
          | exact hx.elim
          | exact hy.elim
          | cases he
      have h1 : assign = true ∧ l = OpTy.val ∨ assign = false ∧ (l = .val ∨ l = .ref) := by
        cases assign <;> cases l <;> first
          | exact hx.elim
          | decide
          | (cases r <;> cases he)
      have h2 : r = .i32 ∨ r = .i16 ∨ r = .i8 := by
        cases r <;> first | exact hy.elim | decide
      cases o with
      | add => exact small _ ho a z kx _ _ _ h1 h2
      | sub => exact small _ ho a z kx _ _ _ h1 h2
      | mul => exact small _ ho a z kx _ _ _ h1 h2
      | div => exact absurd rfl ho
  | int z =>
    have h2 : l = .i32 ∨ l = .i16 ∨ l = .i8 := by
      cases l <;> first | exact hx.elim | decide
    cases y with
    | elem b =>
      obtain ⟨rfl, rfl, ho⟩ : assign = false ∧ r = .ref ∧ (o = .add ∨ o = .mul) := by
        cases o <;> cases assign <;> rcases h2 with rfl | rfl | rfl <;> cases r <;> first
          | decide
          | cases he
      rcases ho with rfl | rfl
      · exact arg _ (.inl rfl) b z ky _ h2
      · exact arg _ (.inr rfl) b z ky _ h2
    | int z' =>
      exfalso
      cases assign <;> rcases h2 with rfl | rfl | rfl <;> cases r <;> first
        | exact hy.elim
        | cases he

end Verif.Rust
