import Verif.Rust.Points
import Verif.Rust.Fmt

/-!
# The ladder of `edwards.rs`

The text of `scalar_mult_normalized` and `scalar_mult`, and what interpreting it computes.
-/

namespace Verif.Rust

def _root_.Verif.LVar.id : LVar → Id
  | .r0 => id! "r0"
  | .r1 => id! "r1"
  | .d0 => id! "d0"
  | .d1 => id! "d1"

def _root_.Verif.LMask.id : LMask → Id
  | .tmask => id! "tmask"
  | .fmask => id! "fmask"

/-- The statements that act on the point variables, as Rust text. -/
def ladderBlock : List LStmt → Block
  | [] => .nil
  | .copy x y :: l => .assign (.var x.id) (.var y.id) (ladderBlock l)
  | .addAssign x y :: l => .opAssign .add (.var x.id) (.var y.id) (ladderBlock l)
  | .bitand x m :: l =>
    .expr (.method (.var x.id) (id! "normalized_bitand") (.acons (.ref (.var m.id)) .anil)) (ladderBlock l)
  | .bitor x y :: l =>
    .expr (.method (.var x.id) (id! "normalized_bitor") (.acons (.ref (.var y.id)) .anil)) (ladderBlock l)
  | .double x :: l => .expr (.method (.var x.id) (id! "double") .anil) (ladderBlock l)
  | _ :: _ => .nil

/-- The statements `ladderBlock` has text for. -/
def plain : LStmt → Bool
  | .copy _ _ => true
  | .addAssign _ _ => true
  | .bitand _ _ => true
  | .bitor _ _ => true
  | .double _ => true
  | _ => false

/-- The body of the loop. -/
def loopBlock : Block :=
  .let (id! "idx") (.bin .sub (.bin .sub (.var (id! "nbits")) (.lit none 1)) (.var (id! "i")))
  (.let (id! "bit") (.method (.var (id! "rhs")) (id! "bit_normalized") (.acons (.var (id! "idx")) .anil))
  (.let (id! "tmask") (.path [id! "C", id! "Scalar", id! "filled"] (.acons (.var (id! "bit")) .anil))
  (.let (id! "fmask") (.path [id! "C", id! "Scalar", id! "filled"] (.acons (.not (.var (id! "bit"))) .anil))
  (.let (id! "d0") (.var (id! "r0"))
  (.let (id! "d1") (.var (id! "r1")) (ladderBlock (Ladder.body.drop 6)))))))

theorem fn_ladder : edF (id! "scalar_mult_normalized") = mkFn (id! "EdwardsExtended") (id! "scalar_mult_normalized") .mut
    [(id! "rhs", tyR (id! "Scalar"))] (tyV (id! "()"))
    (.let (id! "r0") (.path [id! "EdwardsExtended", id! "zero"] .anil)
    (.let (id! "r1") (.method (.var (id! "self")) (id! "clone") .anil)
    (.let (id! "nbits") (.path [id! "C", id! "Scalar", id! "nbits"] .anil)
    (.for (id! "i") (.lit none 0) (.var (id! "nbits")) loopBlock
    (.assign (.field (.var (id! "self")) (id! "x")) (.field (.var (id! "r0")) (id! "x"))
    (.assign (.field (.var (id! "self")) (id! "y")) (.field (.var (id! "r0")) (id! "y"))
    (.assign (.field (.var (id! "self")) (id! "z")) (.field (.var (id! "r0")) (id! "z"))
    (.assign (.field (.var (id! "self")) (id! "t")) (.field (.var (id! "r0")) (id! "t")) .nil))))))), .unit) := by
  decide +kernel

theorem body_split : Ladder.body = [.letIdx, .letBit, .letMask .tmask false, .letMask .fmask true, .copy .d0 .r0,
    .copy .d1 .r1] ++ Ladder.body.drop 6 := by
  decide

theorem body_plain : ∀ x ∈ Ladder.body.drop 6, plain x = true := by decide

/-! ### The variables -/

/-- The variables outside the loop. -/
def baseEnv (t : Id) (N : Nat) (k : Elem) (p r0 r1 : EdwardsExtended Elem) : Env :=
  [(id! "nbits", usize N), (id! "r1", point t r1), (id! "r0", point t r0), (id! "self", .ref (point t p)),
    (id! "rhs", .ref (elem t k))]

/-- All variables of an iteration. -/
def ladderEnv (t : Id) (N i : Nat) (k : Elem) (p : EdwardsExtended Elem) (s : Ladder Elem) : Env :=
  (id! "d1", point t s.d1) :: (id! "d0", point t s.d0) :: (id! "fmask", elem t s.fmask) :: (id! "tmask", elem t s.tmask) ::
    (id! "bit", .bool s.bit) :: (id! "idx", usize s.idx) :: (id! "i", usize i) :: baseEnv t N k p s.r0 s.r1

section
variable {t : Id} {N i : Nat} {k : Elem} {p : EdwardsExtended Elem} {s : Ladder Elem}

theorem lookup_lvar (x : LVar) : (ladderEnv t N i k p s).lookup x.id = some (point t (s.get x)) := by
  cases x <;> rfl

theorem lookup_lmask (m : LMask) : (ladderEnv t N i k p s).lookup m.id = some (elem t (s.mask m)) := by
  cases m <;> rfl

theorem set_lvar (x : LVar) (v : EdwardsExtended Elem) :
    setPlace (ladderEnv t N i k p s) (x.id, []) (point t v) = .ok (ladderEnv t N i k p (s.set x v)) := by
  cases x <;> rfl

end

/-- Sizes. -/
structure LFits (f : Fld) (s : Ladder Elem) : Prop where
  pt : ∀ x, Fits f (s.get x)
  mask : ∀ m, (s.mask m).length = f.code.limbs

theorem LFits.set {f : Fld} {s : Ladder Elem} (hs : LFits f s) (x : LVar) {v : EdwardsExtended Elem} (hv : Fits f v) :
    LFits f (s.set x v) := by
  obtain ⟨h1, h2⟩ := hs
  refine ⟨fun y => ?_, fun m => ?_⟩
  · have a0 := h1 .r0
    have a1 := h1 .r1
    have a2 := h1 .d0
    have a3 := h1 .d1
    cases x <;> cases y <;> first | exact hv | assumption
  · have b0 := h2 .tmask
    have b1 := h2 .fmask
    cases x <;> cases m <;> assumption

section
variable {P : Program} {c : Crv} (h : HasC P c) {w : World} (hc : w.curve = crvId c) {n : Nat} (hn : 10 ≤ n)
  {N i : Nat} {k : Elem} {p : EdwardsExtended Elem}

theorem bitand_fits {pr : Profile} {p : EdwardsExtended Elem} (hp : Fits c.fld p) {m : Elem} (hm : m.length = c.fld.code.limbs) :
    Fits c.fld (p.normalizedBitand (c.scalar pr) m) := by
  rw [Crv.scalar_eq]
  exact ⟨(bits_length hp.x hm).1, (bits_length hp.y hm).1, (bits_length hp.z hm).1, (bits_length hp.t hm).1⟩

theorem bitor_fits {pr : Profile} {p q : EdwardsExtended Elem} (hp : Fits c.fld p) (hq : Fits c.fld q) :
    Fits c.fld (p.normalizedBitor (c.scalar pr) q) := by
  rw [Crv.scalar_eq]
  exact ⟨(bits_length hp.x hq.x).2, (bits_length hp.y hq.y).2, (bits_length hp.z hq.z).2, (bits_length hp.t hq.t).2⟩

include h hc hn in
/-- One statement on the point variables. -/
theorem exec_plain {s : Ladder Elem} (hs : LFits c.fld s) {st : LStmt} (hst : plain st = true) (l : List LStmt) :
    exec (ctx P w n) (ladderEnv (tyId c.fld) N i k p s) (ladderBlock (st :: l)) =
      (lift (Ladder.exec (c.scalar w.pr) k i s st) >>= fun r =>
        exec (ctx P w n) (ladderEnv (tyId c.fld) N i k p r.1) (ladderBlock l)) ∧
    ∀ r, Ladder.exec (c.scalar w.pr) k i s st = .ok r → LFits c.fld r.1 := by
  cases st with
  | letIdx => cases hst
  | letBit => cases hst
  | letMask m neg => cases hst
  | ifBit a b => cases hst
  | copy x y =>
    refine ⟨?_, ?_⟩
    · rw [ladderBlock, exec, eval_var (lookup_lvar y), ok_bind]
      dsimp only
      rw [eval_var (lookup_lvar x), ok_bind]
      dsimp only
      rw [set_lvar, ok_bind]
      rfl
    · intro r hr
      rw [← Except.ok.inj hr]
      exact hs.set x (hs.pt y)
  | addAssign x y =>
    refine ⟨?_, ?_⟩
    · rw [ladderBlock, exec, eval_var (lookup_lvar y), ok_bind]
      dsimp only
      rw [eval_var (lookup_lvar x), ok_bind]
      dsimp only
      rw [opAssign_pointV h hc (hs.pt x) (hs.pt y) hn, Ladder.exec]
      cases (s.get x).addAssign (c.scalar w.pr) (s.get y) with
      | error e => rfl
      | ok z =>
        rw [lift_ok, ok_bind, set_lvar, ok_bind]
        rfl
    · intro r hr
      rw [Ladder.exec] at hr
      obtain ⟨z, hz, hr⟩ := Chn.bind_eq_ok hr
      rw [← Except.ok.inj hr]
      exact hs.set x (add_fits (hs.pt x) (hs.pt y) hz)
  | bitand x m =>
    refine ⟨?_, ?_⟩
    · rw [ladderBlock, exec, eval, eval_var (lookup_lvar x)]
      simp only [ok_bind]
      rw [eval, eval, eval_var (lookup_lmask m)]
      simp only [ok_bind, pure_ok, eval, Out.list, List.append_nil, List.head?_cons, Option.getD_some]
      rw [callP_mut (IsPoint.val (tyId c.fld) (s.get x)) (by decide) (ed_eq h (by decide)) (ms := [false]) (by rw [fn_bitand]; rfl)
        _ _ _ _ (by rw [fn_bitand]), run_bitand h (hs.pt x) (by omega) (hs.mask m)]
      simp only [ok_bind, writeBack, strip_ref, set_lvar]
      rfl
    · intro r hr
      rw [← Except.ok.inj hr]
      exact hs.set x (bitand_fits (hs.pt x) (hs.mask m))
  | bitor x y =>
    refine ⟨?_, ?_⟩
    · rw [ladderBlock, exec, eval, eval_var (lookup_lvar x)]
      simp only [ok_bind]
      rw [eval, eval, eval_var (lookup_lvar y)]
      simp only [ok_bind, pure_ok, eval, Out.list, List.append_nil, List.head?_cons, Option.getD_some]
      rw [callP_mut (IsPoint.val (tyId c.fld) (s.get x)) (by decide) (ed_eq h (by decide)) (ms := [false]) (by rw [fn_bitor]; rfl)
        _ _ _ _ (by rw [fn_bitor]), run_bitor h (hs.pt x) (hs.pt y) (by omega)]
      simp only [ok_bind, writeBack, strip_ref, set_lvar]
      rfl
    · intro r hr
      rw [← Except.ok.inj hr]
      exact hs.set x (bitor_fits (hs.pt x) (hs.pt y))
  | double x =>
    refine ⟨?_, ?_⟩
    · rw [ladderBlock, exec, eval, eval_var (lookup_lvar x)]
      simp only [ok_bind, pure_ok, eval, Out.list, List.head?_cons, Option.getD_some]
      rw [callP_mut (IsPoint.val (tyId c.fld) (s.get x)) (by decide) (ed_eq h (by decide)) (ms := []) (by rw [fn_double]; rfl)
        _ _ _ _ (by rw [fn_double]), run_point_double h hc (by omega) (hs.pt x), Ladder.exec]
      cases (s.get x).double (c.scalar w.pr) with
      | error e => rfl
      | ok z =>
        simp only [lift_ok, ok_bind, writeBack, strip_ref, set_lvar]
        rfl
    · intro r hr
      rw [Ladder.exec] at hr
      obtain ⟨z, hz, hr⟩ := Chn.bind_eq_ok hr
      rw [← Except.ok.inj hr]
      exact hs.set x (double_fits (hs.pt x) hz)

include h hc hn in
theorem exec_plains : ∀ (l : List LStmt) (_ : ∀ x ∈ l, plain x = true) (s : Ladder Elem) (_ : LFits c.fld s),
    exec (ctx P w n) (ladderEnv (tyId c.fld) N i k p s) (ladderBlock l) =
      (lift (Ladder.execAll (c.scalar w.pr) k i l s) >>= fun r => .ok (ladderEnv (tyId c.fld) N i k p r.1)) ∧
    ∀ r, Ladder.execAll (c.scalar w.pr) k i l s = .ok r → LFits c.fld r.1
  | [], _, s, hs => by
    refine ⟨rfl, fun r hr => ?_⟩
    rw [← Except.ok.inj hr]
    exact hs
  | st :: l, hl, s, hs => by
    obtain ⟨e1, e2⟩ := exec_plain h hc hn (N := N) (i := i) (k := k) (p := p) hs (hl st (by simp)) l
    rw [e1, Ladder.execAll]
    cases hz : Ladder.exec (c.scalar w.pr) k i s st with
    | error e => exact ⟨rfl, nofun⟩
    | ok z =>
      obtain ⟨z, ev⟩ := z
      obtain ⟨f1, f2⟩ := exec_plains l (fun x hx => hl x (by simp [hx])) z (e2 _ hz)
      rw [lift_ok, ok_bind, ok_bind]
      dsimp only
      rw [f1]
      cases hy : Ladder.execAll (c.scalar w.pr) k i l z with
      | error e => exact ⟨rfl, nofun⟩
      | ok y =>
        refine ⟨rfl, fun r hr => ?_⟩
        rw [← Except.ok.inj hr]
        exact f2 y hy

/-! ### One iteration -/

theorem nbits_lt (f : Fld) : f.code.nbits < 2 ^ 64 := by cases f <;> decide

theorem filled_length (f : Fld) (b : Bool) : (f.code.filled b).length = f.code.limbs := by
  simp [FieldCode.filled]

theorem prim_sub_usize' {pr : Profile} {x y : Nat} {t : Option IntTy} (ht : t = none ∨ t = some .usize) (hy : y ≤ x) (hx : x < 2 ^ 64) :
    prim pr .sub (usize x) (.int t y) = .ok (usize (x - y)) := by
  have e : (x : Int) - (y : Int) = ((x - y : Nat) : Int) := (Int.ofNat_sub hy).symm
  have q : arithTy pr .usize ((x - y : Nat) : Int) = .ok ((x - y : Nat) : Int) :=
    arithTy_usize (by omega) (by omega)
  rcases ht with rfl | rfl
  · show (arithTy pr .usize ((x : Int) - (y : Int)) >>= fun z => .ok (Val.int (some .usize) z)) = _
    rw [e, q]
    rfl
  · show (arithTy pr .usize ((x : Int) - (y : Int)) >>= fun z => .ok (Val.int (some .usize) z)) = _
    rw [e, q]
    rfl

include h hc in
/-- `C::Scalar::filled(e)` -/
theorem eval_filled (hn : 1 ≤ n) {ρ : Env} {e : Expr} {b : Bool} {x : Option Place} (he : eval (ctx P w n) ρ e = .ok ⟨.bool b, [x], ρ⟩) :
    eval (ctx P w n) ρ (.path [id! "C", id! "Scalar", id! "filled"] (.acons e .anil)) =
      .ok ⟨elem (tyId c.fld) (c.fld.code.filled b), [none], ρ⟩ := by
  have r := call_filled h.fld w hn (t := tyId c.fld) (by simp) b
  have hm := h.fld.method (fn_fill c.fld (tyId c.fld) (by simp)).2
  rw [callFn, hm] at r
  rw [eval, eval, he]
  simp only [ok_bind, eval, Out.list, pure_ok, List.append_nil]
  rw [callPath_scalar h hc hm]
  simp only [invoke, mkFn, ctx_call]
  dsimp only [mkFn] at r
  rw [r]
  rfl

/-- The first six statements of the loop, in the model. -/
theorem body_head {S : Type} (C : Scalar S) (k : S) (i : Nat) (l : List LStmt) (s : Ladder S) :
    Ladder.execAll C k i ([.letIdx, .letBit, .letMask .tmask false, .letMask .fmask true, .copy .d0 .r0, .copy .d1 .r1] ++ l) s =
      (C.bitNormalized k (C.nbits - 1 - i) >>= fun b =>
        Ladder.execAll C k i l ⟨s.r0, s.r1, s.r0, s.r1, C.nbits - 1 - i, b, C.filled b, C.filled !b⟩ >>= fun r =>
          .ok (r.1, [⟨i, .letIdx⟩, ⟨i, .letBit⟩, ⟨i, .letMask .tmask false⟩, ⟨i, .letMask .fmask true⟩, ⟨i, .copy .d0 .r0⟩,
            ⟨i, .copy .d1 .r1⟩] ++ r.2)) := by
  simp only [List.cons_append, List.nil_append]
  rw [Ladder.execAll, Ladder.exec, ok_bind]
  dsimp only
  rw [Ladder.execAll, Ladder.exec]
  dsimp only
  cases C.bitNormalized k (C.nbits - 1 - i) with
  | error e => rfl
  | ok b =>
    simp only [ok_bind, pure_ok]
    iterate 4
      rw [Ladder.execAll, Ladder.exec, ok_bind]
      dsimp only
    simp only [Ladder.set, Ladder.get, Ladder.setMask, if_true, Bool.false_eq_true, if_false]
    cases Ladder.execAll C k i l ⟨s.r0, s.r1, s.r0, s.r1, C.nbits - 1 - i, b, C.filled b, C.filled !b⟩ with
    | error e => rfl
    | ok r => rfl

include h hc hn in
theorem exec_iteration (hi : i < c.fld.code.nbits) {r0 r1 d0 d1 : EdwardsExtended Elem} {idx : Nat} {bit : Bool} {tm fm : Elem}
    (h0 : Fits c.fld r0) (h1 : Fits c.fld r1) :
    exec (ctx P w n) ((id! "i", usize i) :: baseEnv (tyId c.fld) c.fld.code.nbits k p r0 r1) loopBlock =
      (lift (Ladder.execAll (c.scalar w.pr) k i Ladder.body ⟨r0, r1, d0, d1, idx, bit, tm, fm⟩) >>= fun r =>
        .ok (ladderEnv (tyId c.fld) c.fld.code.nbits i k p r.1)) ∧
    ∀ r, Ladder.execAll (c.scalar w.pr) k i Ladder.body ⟨r0, r1, d0, d1, idx, bit, tm, fm⟩ = .ok r → LFits c.fld r.1 := by
  have hb := nbits_lt c.fld
  have hS : (c.scalar w.pr).nbits = c.fld.code.nbits ∧ (c.scalar w.pr).bitNormalized = c.fld.code.bitNormalized ∧
      (c.scalar w.pr).filled = c.fld.code.filled := by
    rw [Crv.scalar_eq]
    exact ⟨rfl, rfl, rfl⟩
  obtain ⟨s1, s2, s3⟩ := hS
  rw [body_split, loopBlock]
  generalize c.fld.code.nbits = N at *
  rw [exec, eval, eval, eval_var (v := usize N) rfl]
  simp only [ok_bind, eval]
  rw [binop_prim (by rfl) (by rfl), ctx_pr, prim_sub_usize' (.inl rfl) (by omega) hb]
  simp only [ok_bind, pure_ok, show List.lookup (id! "i") ((id! "i", usize i) :: baseEnv (tyId c.fld) N k p r0 r1) = some (usize i) from rfl]
  rw [binop_prim (by rfl) (by rfl), show usize i = .int (some .usize) i from rfl, ctx_pr, prim_sub_usize' (.inr rfl) (by omega) (by omega)]
  simp only [ok_bind, pure_ok]
  rw [exec, eval, eval_var (v := .ref (elem (tyId c.fld) k)) rfl]
  simp only [ok_bind]
  rw [eval, eval_var (v := usize (N - 1 - i)) rfl]
  simp only [ok_bind, pure_ok, eval, Out.list, List.append_nil, List.head?_cons, Option.getD_some]
  rw [call_ref w (IsElem.ref (tyId c.fld) k) (by decide) (method_eq h.fld (by decide))
      (muts_bit_normalized c.fld) _ _ _ _ (recv_bit_normalized c.fld), run_bit_normalized w (by omega)]
  rw [body_head, s1, s2, s3]
  cases c.fld.code.bitNormalized k (N - 1 - i) with
  | error e => exact ⟨rfl, nofun⟩
  | ok b =>
    simp only [lift_ok, ok_bind, List.tail_cons, writeBack, pure_ok]
    rw [exec, eval_filled h hc (by omega) (eval_var (v := .bool b) rfl), ok_bind]
    dsimp only
    rw [exec, eval_filled h hc (b := !b) (x := none) (by omega) (by rw [eval, eval_var (v := .bool b) rfl]; rfl), ok_bind]
    dsimp only
    rw [exec, eval_var (v := point (tyId c.fld) r0) rfl, ok_bind]
    dsimp only
    rw [exec, eval_var (v := point (tyId c.fld) r1) rfl, ok_bind]
    dsimp only
    obtain ⟨e1, e2⟩ := exec_plains h hc hn (N := N) (i := i) (k := k) (p := p) (Ladder.body.drop 6) body_plain
      ⟨r0, r1, r0, r1, N - 1 - i, b, c.fld.code.filled b, c.fld.code.filled (!b)⟩
      ⟨fun x => by cases x <;> assumption, fun m => by cases m <;> exact filled_length _ _⟩
    rw [ladderEnv] at e1
    refine ⟨Eq.trans e1 ?_, fun r hr => ?_⟩
    · cases Ladder.execAll (c.scalar w.pr) k i (Ladder.body.drop 6)
        ⟨r0, r1, r0, r1, N - 1 - i, b, c.fld.code.filled b, c.fld.code.filled (!b)⟩ with
      | error e => rfl
      | ok r => rfl
    · obtain ⟨y, hy, hr⟩ := Chn.bind_eq_ok hr
      rw [← Except.ok.inj hr]
      exact e2 y hy

/-! ### The loop -/

include h hc hn in
theorem iterate_ladder : ∀ (m i : Nat) (_ : i + m = c.fld.code.nbits) (s : Ladder Elem) (_ : Fits c.fld s.r0) (_ : Fits c.fld s.r1),
    iterate (fun i ρ => do
        let ρ1 ← exec (ctx P w n) ((id! "i", .int (some .usize) i) :: ρ) loopBlock
        return ρ1.drop (ρ1.length - ρ.length)) m i (baseEnv (tyId c.fld) c.fld.code.nbits k p s.r0 s.r1) =
      (lift (Ladder.loop (c.scalar w.pr) k Ladder.body m i s) >>= fun r =>
        .ok (baseEnv (tyId c.fld) c.fld.code.nbits k p r.1.r0 r.1.r1)) ∧
    ∀ r, Ladder.loop (c.scalar w.pr) k Ladder.body m i s = .ok r → Fits c.fld r.1.r0
  | 0, i, _, s, h0, h1 => by
    refine ⟨rfl, fun r hr => ?_⟩
    rw [← Except.ok.inj hr]
    exact h0
  | m + 1, i, hi, s, h0, h1 => by
    obtain ⟨e1, e2⟩ := exec_iteration h hc hn (i := i) (k := k) (p := p) (by omega) (d0 := s.d0) (d1 := s.d1) (idx := s.idx)
      (bit := s.bit) (tm := s.tmask) (fm := s.fmask) h0 h1
    rw [usize] at e1
    rw [iterate, Ladder.loop, e1]
    cases hz : Ladder.execAll (c.scalar w.pr) k i Ladder.body s with
    | error e => exact ⟨rfl, nofun⟩
    | ok z =>
      obtain ⟨z, ev⟩ := z
      have l := e2 _ hz
      obtain ⟨f1, f2⟩ := iterate_ladder m (i + 1) (by omega) z (l.pt .r0) (l.pt .r1)
      rw [lift_ok, ok_bind, ok_bind, ok_bind]
      dsimp only
      refine ⟨Eq.trans f1 ?_, fun r hr => ?_⟩
      · cases Ladder.loop (c.scalar w.pr) k Ladder.body m (i + 1) z with
        | error e => rfl
        | ok y => rfl
      · obtain ⟨y, hy, hr⟩ := Chn.bind_eq_ok hr
        rw [← Except.ok.inj hr]
        exact f2 y hy

/-! ### The functions -/

theorem zero_fits (pr : Profile) : Fits c.fld (EdwardsExtended.zero (c.scalar pr)) := by
  have l0 : c.fld.code.ZERO.length = c.fld.code.limbs := (const_length c.fld).1
  have l1 : c.fld.code.ONE.length = c.fld.code.limbs := by cases c <;> rfl
  rw [Crv.scalar_eq]
  exact ⟨l0, l1, l1, l1⟩

/-- `self.x = r0.x;` -/
theorem exec_setBase {c : Ctx} {t : Id} {r : Nat} (hr : r < 4) {p r0 r1 : EdwardsExtended Elem} {N : Nat} {k : Elem} (rest : Block) :
    exec c (baseEnv t N k p r0 r1) (.assign (.field (.var (id! "self")) (coordId r)) (.field (.var (id! "r0")) (coordId r)) rest) =
      exec c (baseEnv t N k (setC p (getC r0 r) r) r0 r1) rest := by
  rw [exec, eval_coord (v := point t r0) rfl (IsPoint.val t r0) hr, ok_bind]
  dsimp only
  rw [eval_coord (v := .ref (point t p)) rfl (IsPoint.ref t p) hr, ok_bind]
  dsimp only
  have : r = 0 ∨ r = 1 ∨ r = 2 ∨ r = 3 := by omega
  rcases this with rfl | rfl | rfl | rfl <;> rfl

include h hc in
theorem run_ladder (hn : 11 ≤ n) (hp : Fits c.fld p) :
    run P w n (edF (id! "scalar_mult_normalized")) [.ref (point (tyId c.fld) p), .ref (elem (tyId c.fld) k)] =
      (lift (p.scalarMultNormalized (c.scalar w.pr) k) >>= fun r =>
        .ok (.unit, [.ref (point (tyId c.fld) r), .ref (elem (tyId c.fld) k)])) := by
  obtain ⟨n, rfl⟩ := Nat.exists_eq_add_of_le' (show 1 ≤ n by omega)
  have s1 : (c.scalar w.pr).nbits = c.fld.code.nbits := by rw [Crv.scalar_eq]; rfl
  rw [run_succ, fn_ladder]
  simp only [runBody, mkFn, Fn.names, Fn.coerce, List.map, List.zipWith, List.zip_cons_cons, List.zip_nil_left, coerce_ref]
  rw [exec, eval]
  simp only [ok_bind, eval, Out.list]
  rw [callPath]
  rotate_left
  · nofun
  simp only [show (id! "EdwardsExtended" = id! "i64") = False from by decide +kernel,
    show (id! "EdwardsExtended" = id! "C") = False from by decide +kernel, if_false, ctx_prog, ed_eq h (show id! "zero" ∈ edMethods by decide)]
  have hz := run_zero h hc (w := w) (show 2 ≤ n by omega)
  rw [fn_zero] at hz ⊢
  simp only [invoke, mkFn, ctx_call]
  dsimp only [mkFn] at hz
  rw [hz]
  simp only [ok_bind, writeBack, pure_ok, List.map]
  rw [exec, eval, eval_var (v := .ref (point (tyId c.fld) p)) rfl]
  simp only [ok_bind, eval, Out.list, callP_clone (IsPoint.ref (tyId c.fld) p), pure_ok]
  rw [exec, eval]
  simp only [ok_bind, eval, Out.list]
  rw [callPath_scalar h hc (method_eq h.fld (by decide))]
  simp only [invoke, recv_nbits, muts_nbits, ctx_call]
  rw [run_nbits w (by omega)]
  simp only [ok_bind, writeBack, pure_ok]
  rw [exec]
  simp only [ok_bind, eval]
  rw [show List.lookup (id! "nbits") ((id! "nbits", Val.int (some .usize) c.fld.code.nbits) ::
    (id! "r1", point (tyId c.fld) p) :: (id! "r0", point (tyId c.fld) (EdwardsExtended.zero (c.scalar w.pr))) ::
    [(id! "self", Val.ref (point (tyId c.fld) p)), (id! "rhs", Val.ref (elem (tyId c.fld) k))]) =
      some (.int (some .usize) c.fld.code.nbits) from rfl]
  simp only [ok_bind]
  rw [show bounds (Val.int none ((0 : Nat) : Int)) (Val.int (some .usize) (c.fld.code.nbits : Int)) = .ok (0, c.fld.code.nbits) by
    simp [bounds]]
  simp only [ok_bind]
  obtain ⟨e1, -⟩ := iterate_ladder h hc (w := w) (show 10 ≤ n by omega) (k := k) (p := p) c.fld.code.nbits 0 (by omega)
    ⟨EdwardsExtended.zero (c.scalar w.pr), p, EdwardsExtended.zero (c.scalar w.pr), p, 0, false, (c.scalar w.pr).filled false,
      (c.scalar w.pr).filled false⟩ (zero_fits w.pr) hp
  simp only [baseEnv, usize] at e1
  rw [e1, EdwardsExtended.scalarMultNormalized, EdwardsExtended.scalarMultNormalizedT, s1]
  cases Ladder.loop (c.scalar w.pr) k Ladder.body c.fld.code.nbits 0 ⟨EdwardsExtended.zero (c.scalar w.pr), p,
    EdwardsExtended.zero (c.scalar w.pr), p, 0, false, (c.scalar w.pr).filled false, (c.scalar w.pr).filled false⟩ with
  | error e => rfl
  | ok z =>
    obtain ⟨z, ev⟩ := z
    simp only [lift_ok, ok_bind]
    have e2 := @exec_setBase (ctx P w n) (tyId c.fld)
    simp only [baseEnv, usize] at e2
    obtain ⟨k0, k1, k2, k3⟩ := self_coords
    have q0 : Expr.field (.var (id! "r0")) (id! "x") = .field (.var (id! "r0")) (coordId 0) := rfl
    have q1 : Expr.field (.var (id! "r0")) (id! "y") = .field (.var (id! "r0")) (coordId 1) := rfl
    have q2 : Expr.field (.var (id! "r0")) (id! "z") = .field (.var (id! "r0")) (coordId 2) := rfl
    have q3 : Expr.field (.var (id! "r0")) (id! "t") = .field (.var (id! "r0")) (coordId 3) := rfl
    rw [k0, q0, e2 (by decide), k1, q1, e2 (by decide), k2, q2, e2 (by decide), k3, q3, e2 (by decide)]
    rfl

theorem fn_scalar_mult : edF (id! "scalar_mult") = mkFn (id! "EdwardsExtended") (id! "scalar_mult") .mut
    [(id! "rhs", tyM (id! "Scalar"))] (tyV (id! "()")) (rust_block% r"
        rhs.normalize();
        self.scalar_mult_normalized(rhs);
    ") := by
  decide +kernel

include h hc in
theorem run_scalar_mult (hn : 12 ≤ n) (hp : Fits c.fld p) (hk : k.length = c.fld.code.limbs) :
    run P w n (edF (id! "scalar_mult")) [.ref (point (tyId c.fld) p), .ref (elem (tyId c.fld) k)] =
      (lift (p.scalarMult (c.scalar w.pr) k) >>= fun r =>
        .ok (.unit, [.ref (point (tyId c.fld) r.1), .ref (elem (tyId c.fld) r.2)])) := by
  obtain ⟨n, rfl⟩ := Nat.exists_eq_add_of_le' (show 1 ≤ n by omega)
  have s1 : (c.scalar w.pr).normalize = c.fld.code.normalize w.pr := by rw [Crv.scalar_eq]; rfl
  rw [run_succ, fn_scalar_mult, EdwardsExtended.scalarMult, s1]
  simp only [runBody, mkFn, Fn.names, Fn.coerce, List.map, List.zipWith, List.zip_cons_cons, List.zip_nil_left, coerce_ref]
  rw [exec_normalize h.fld w (show 9 ≤ n by omega) rfl (IsElem.ref (tyId c.fld) k) hk]
  cases hr : c.fld.code.normalize w.pr k with
  | error e => rfl
  | ok r =>
    rw [lift_ok, ok_bind, show setPlace [(id! "self", .ref (point (tyId c.fld) p)), (id! "rhs", .ref (elem (tyId c.fld) k))]
      (id! "rhs", []) (elem (tyId c.fld) r) = .ok [(id! "self", .ref (point (tyId c.fld) p)),
      (id! "rhs", .ref (elem (tyId c.fld) r))] from rfl, ok_bind, exec, eval, eval_var (v := .ref (point (tyId c.fld) p)) rfl]
    simp only [ok_bind]
    rw [eval, eval_var (v := .ref (elem (tyId c.fld) r)) rfl]
    simp only [ok_bind, eval, pure_ok, Out.list, List.head?_cons, Option.getD_some, List.append_nil]
    rw [callP_mut (IsPoint.ref (tyId c.fld) p) (by decide) (ed_eq h (by decide)) (ms := [false]) (by rw [fn_ladder]; rfl)
      _ _ _ _ (by rw [fn_ladder]), run_ladder h hc (by omega) hp]
    cases p.scalarMultNormalized (c.scalar w.pr) r with
    | error e => rfl
    | ok z => rfl

end

end Verif.Rust
