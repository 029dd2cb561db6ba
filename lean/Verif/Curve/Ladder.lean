import Verif.Curve.Points

/-!
# The ladder (helper lemmas)

One iteration of the loop of `scalar_mult_normalized` and loop invariants, over any scalar type
whose masks select.
-/

namespace Verif

/-- `filled` masks select with `normalized_bitand` and `normalized_bitor` among elements with
`w`. -/
def Scalar.Selects {S : Type} (C : Scalar S) (w : S → Prop) : Prop :=
  ∀ {x y : S}, w x → w y → ∀ b : Bool,
    C.normalizedBitor (C.normalizedBitand x (C.filled b))
      (C.normalizedBitand y (C.filled (!b))) = if b then x else y

variable {S : Type} {C : Scalar S} {w : S → Prop}

namespace EdwardsExtended

theorem select (hM : C.Selects w) {p q : EdwardsExtended S} (hp : p.Ok w) (hq : q.Ok w) (b : Bool) :
    (p.normalizedBitand C (C.filled b)).normalizedBitor C (q.normalizedBitand C (C.filled (!b))) =
      if b then p else q := by
  obtain ⟨p1, p2, p3, p4⟩ := hp
  obtain ⟨q1, q2, q3, q4⟩ := hq
  simp only [normalizedBitand, normalizedBitor, hM p1 q1, hM p2 q2, hM p3 q3, hM p4 q4]
  cases b <;> rfl

theorem select' (hM : C.Selects w) {p q : EdwardsExtended S} (hp : p.Ok w) (hq : q.Ok w)
    (b : Bool) :
    (p.normalizedBitand C (C.filled (!b))).normalizedBitor C (q.normalizedBitand C (C.filled b)) =
      if b then q else p := by
  have h := select hM hp hq (!b)
  rw [Bool.not_not] at h
  rw [h]
  cases b <;> rfl

end EdwardsExtended

namespace Ladder

/-- The events of an iteration. -/
def iterEvents (i : Nat) : List Event := body.map fun a => ⟨i, a⟩

/-- The events of `n` iterations from `i`. -/
def events (n i : Nat) : List Event := (List.range' i n).flatMap iterEvents

theorem events_succ (n i : Nat) : events (n + 1) i = iterEvents i ++ events n (i + 1) := by
  simp [events, List.range'_succ]

/-- One iteration replaces `(r0, r1)` by `(r0 + r1, 2 r1)` or `(2 r0, r0 + r1)`. -/
theorem iter (hM : C.Selects w) {k : S} {i : Nat} {s : Ladder S} {b : Bool}
    {sum dbl : EdwardsExtended S} (h0 : s.r0.Ok w) (h1 : s.r1.Ok w)
    (hb : C.bitNormalized k (C.nbits - 1 - i) = .ok b)
    (hs : s.r0.addAssign C s.r1 = .ok sum) (hs' : sum.Ok w)
    (hd : (if b then s.r0 else s.r1).double C = .ok dbl) (hd' : dbl.Ok w) :
    ∃ s', execAll C k i body s = .ok (s', iterEvents i) ∧
      s'.r0 = (if b then dbl else sum) ∧ s'.r1 = (if b then sum else dbl) := by
  have e1 := EdwardsExtended.select hM h0 h1 b
  have e2 := EdwardsExtended.select' hM hs' hd' b
  have e3 := EdwardsExtended.select hM hs' hd' b
  refine ⟨⟨if b then dbl else sum, if b then sum else dbl, dbl.normalizedBitand C (C.filled b),
    dbl.normalizedBitand C (C.filled (!b)), C.nbits - 1 - i, b, C.filled b, C.filled (!b)⟩,
    ?_, rfl, rfl⟩
  simp only [body, iterEvents, execAll, exec, hb, hs, hd, e1, e2, e3, set, get, setMask, mask,
    bind, Except.bind, pure, Except.pure, Bool.false_eq_true, if_false, if_true, List.map_cons,
    List.map_nil, List.cons_append, List.nil_append]

/-- The statement is not a branch. -/
def straight : LStmt → Bool
  | .ifBit _ _ => false
  | _ => true

/-- Loop invariants. -/
theorem loop_inv (hM : C.Selects w) {k : S} (Inv : Nat → EdwardsExtended S → EdwardsExtended S → Prop)
    (hw : ∀ {i r0 r1}, Inv i r0 r1 → r0.Ok w ∧ r1.Ok w) {N : Nat}
    (step : ∀ {i r0 r1}, i < N → Inv i r0 r1 → ∃ b sum dbl,
      C.bitNormalized k (C.nbits - 1 - i) = .ok b ∧ r0.addAssign C r1 = .ok sum ∧
      (if b then r0 else r1).double C = .ok dbl ∧
      Inv (i + 1) (if b then dbl else sum) (if b then sum else dbl)) :
    ∀ (n i : Nat) (s : Ladder S), i + n = N → Inv i s.r0 s.r1 →
      ∃ s', loop C k body n i s = .ok (s', events n i) ∧ Inv N s'.r0 s'.r1 := by
  intro n
  induction n with
  | zero => rintro i s rfl h; exact ⟨s, rfl, h⟩
  | succ n ih =>
    intro i s hi h
    obtain ⟨b, sum, dbl, h1, h2, h3, h4⟩ := step (by omega) h
    have hsd : sum.Ok w ∧ dbl.Ok w := by
      have := hw h4
      cases b
      · exact this
      · exact this.symm
    obtain ⟨s', e1, e2, e3⟩ := iter hM (hw h).1 (hw h).2 h1 h2 hsd.1 h3 hsd.2
    rw [← e2, ← e3] at h4
    obtain ⟨s'', f1, f2⟩ := ih (i + 1) s' (by omega) h4
    exact ⟨s'', by simp [loop, e1, f1, bind, Except.bind, pure, Except.pure, events_succ], f2⟩

/-- The events do not depend on the data, for any scalar type. -/
theorem execAll_events {k : S} {i : Nat} : ∀ (b : List LStmt), (∀ a ∈ b, straight a = true) →
    ∀ {s s' : Ladder S} {ev}, execAll C k i b s = .ok (s', ev) → ev = b.map fun a => ⟨i, a⟩ := by
  intro b
  induction b with
  | nil => intro _ s s' ev h; cases h; rfl
  | cons a b ih =>
    intro hb s s' ev h
    have ha : ∀ {s1 ev1}, exec C k i s a = .ok (s1, ev1) → ev1 = [⟨i, a⟩] := by
      intro s1 ev1 h
      cases a with
      | ifBit u v => exact absurd (hb _ List.mem_cons_self) (by simp [straight])
      | letBit =>
        simp only [exec, bind, Except.bind, pure, Except.pure] at h
        split at h <;> cases h; rfl
      | addAssign x y =>
        simp only [exec, bind, Except.bind, pure, Except.pure] at h
        split at h <;> cases h; rfl
      | double x =>
        simp only [exec, bind, Except.bind, pure, Except.pure] at h
        split at h <;> cases h; rfl
      | _ => cases h; rfl
    simp only [execAll, bind, Except.bind, pure, Except.pure] at h
    split at h
    · cases h
    · next r h1 =>
      split at h
      · cases h
      · next r' h2 =>
        cases h
        rw [ha h1, ih (fun c hc => hb c (List.mem_cons_of_mem _ hc)) h2]
        rfl

theorem loop_events {k : S} : ∀ (n i : Nat) {s s' : Ladder S} {ev},
    loop C k body n i s = .ok (s', ev) → ev = events n i := by
  intro n
  induction n with
  | zero => intro i s s' ev h; cases h; rfl
  | succ n ih =>
    intro i s s' ev h
    simp only [loop, bind, Except.bind, pure, Except.pure] at h
    split at h
    · cases h
    · next r h1 =>
      split at h
      · cases h
      · next r' h2 =>
        cases h
        rw [ih _ h2, execAll_events body (by decide) h1, events_succ]
        rfl

end Ladder

/-! ### Over scalars that implement the field without conditions -/

/-- The methods of `C` implement the operations of `K` on all valid elements (no conditions; of
`small_mul` only `small_mul(2)` is asked for, the only literal in the source). -/
abbrev Scalar.Exact (C : Scalar S) (K : Type) [Field K] (d : K) (ok : S → Prop) (den : S → K) :
    Prop := C.Impl K d ok den (fun _ _ => True) (fun _ _ => True) (fun _ n => n = 2)

/-- All literals of an expression are `2`. -/
def PExpr.twos : PExpr → Bool
  | .get _ => true
  | .dval => true
  | .add a b => a.twos && b.twos
  | .sub a b => a.twos && b.twos
  | .mul a b => a.twos && b.twos
  | .squared a => a.twos
  | .smallMul a n => a.twos && n == 2

/-- All literals of a program are `2`. -/
def twos : PProg → Bool
  | [] => true
  | .set _ e :: rest => e.twos && twos rest

theorem PExpr.safe_true (ρ : Tree S) (e : PExpr) (h : e.twos = true) :
    e.Safe C (fun _ _ => True) (fun _ _ => True) (fun _ n => n = 2) ρ := by
  induction e with
  | get _ => trivial
  | dval => trivial
  | add a b iha ihb => have h := Bool.and_eq_true_iff.1 h; exact ⟨iha h.1, ihb h.2⟩
  | sub a b iha ihb =>
    have h := Bool.and_eq_true_iff.1 h; exact ⟨iha h.1, ihb h.2, fun _ _ _ _ => trivial⟩
  | mul a b iha ihb =>
    have h := Bool.and_eq_true_iff.1 h; exact ⟨iha h.1, ihb h.2, fun _ _ _ _ => trivial⟩
  | squared a iha => exact iha h
  | smallMul a n iha =>
    have h := Bool.and_eq_true_iff.1 h; exact ⟨iha h.1, fun _ _ => beq_iff_eq.1 h.2⟩

theorem safeProg_true (p : PProg) (ρ : Tree S) (h : twos p = true := by decide) :
    SafeProg C (fun _ _ => True) (fun _ _ => True) (fun _ n => n = 2) p ρ := by
  induction p generalizing ρ with
  | nil => trivial
  | cons s p ih =>
    obtain ⟨r, e⟩ := s
    have h := Bool.and_eq_true_iff.1 h
    exact ⟨PExpr.safe_true ρ e h.1, fun v _ => ih _ h.2⟩

section
variable {K : Type} [Field K] {d : K} {den : S → K} [hd : Fact (¬ IsSquare d)] [h2 : NeZero (2 : K)]

/-- The ladder computes `(2 ^ nbits - 1 - x) P`, where `x` is the number whose bits the loop reads,
when it is started with projective coordinates of `0` and a representation of `P` whose sum
comes out right. -/
theorem ladder_mult' (I : C.Exact K d w den) (hM : C.Selects w) {k : S} {x : Nat}
    (hn : 0 < C.nbits)
    (hx : x < 2 ^ C.nbits) (hk : ∀ i < C.nbits, C.bitNormalized k i = .ok (x.testBit i))
    {P : EdPoint K d} {s : Ladder S} (h0 : s.r0.ReprXYZ w den (0 : EdPoint K d))
    (h1 : s.r1.Repr w den P) (hs : ∃ r, s.r0.addAssign C s.r1 = .ok r ∧ r.Repr w den P) :
    ∃ s', Ladder.loop C k Ladder.body C.nbits 0 s = .ok (s', Ladder.events C.nbits 0) ∧
      s'.r0.Repr w den ((2 ^ C.nbits - 1 - x) • P) := by
  obtain ⟨s', e1, m, e2, e3, -⟩ := Ladder.loop_inv hM (k := k)
    (fun i r0 r1 => ∃ m : Nat, m + x / 2 ^ (C.nbits - i) + 1 = 2 ^ i ∧
      (0 < i → r0.Repr w den (m • P)) ∧ r0.ReprXYZ w den (m • P) ∧
      r1.Repr w den ((m + 1) • P) ∧
      ∃ r, r0.addAssign C r1 = .ok r ∧ r.Repr w den (m • P + (m + 1) • P))
    (fun ⟨_, _, _, a, b, _⟩ => ⟨a.1, b.1.1⟩) (N := C.nbits) (by
      rintro i r0 r1 hi ⟨m, hm, -, a, b, sum, f1, f2⟩
      have hb := hk (C.nbits - 1 - i) (by omega)
      have hdiv : x / 2 ^ (C.nbits - i) = x / 2 ^ (C.nbits - (i + 1)) / 2 := by
        rw [show C.nbits - i = C.nbits - (i + 1) + 1 by omega, pow_succ, Nat.div_div_eq_div_mul]
      have hbit : x.testBit (C.nbits - 1 - i) = decide (x / 2 ^ (C.nbits - (i + 1)) % 2 = 1) := by
        rw [show C.nbits - 1 - i = C.nbits - (i + 1) by omega, Nat.testBit_eq_decide_div_mod_eq]
      have close : ∀ {m' : Nat} {u v : EdwardsExtended S},
          m' + x / 2 ^ (C.nbits - (i + 1)) + 1 = 2 ^ (i + 1) → u.Repr w den (m' • P) →
          v.Repr w den ((m' + 1) • P) →
          ∃ m : Nat, m + x / 2 ^ (C.nbits - (i + 1)) + 1 = 2 ^ (i + 1) ∧
            (0 < i + 1 → u.Repr w den (m • P)) ∧ u.ReprXYZ w den (m • P) ∧
            v.Repr w den ((m + 1) • P) ∧
            ∃ r, u.addAssign C v = .ok r ∧ r.Repr w den (m • P + (m + 1) • P) :=
        fun h hu hv => ⟨_, h, fun _ => hu, hu.1, hv,
          EdwardsExtended.add_repr I hu hv (safeProg_true _ _)⟩
      cases hc : x.testBit (C.nbits - 1 - i) with
      | true =>
        rw [hc] at hb hbit
        have hbit := of_decide_eq_true hbit.symm
        obtain ⟨dbl, g1, g2⟩ := EdwardsExtended.double_repr I a (safeProg_true _ _)
        refine ⟨true, sum, dbl, hb, f1, g1, close (m' := 2 * m) ?_ ?_ ?_⟩
        · rw [pow_succ]; omega
        · rw [if_pos rfl, two_mul, add_smul]; exact g2
        · rw [if_pos rfl, show 2 * m + 1 = m + (m + 1) by ring, add_smul]; exact f2
      | false =>
        rw [hc] at hb hbit
        have hbit := of_decide_eq_false hbit.symm
        obtain ⟨dbl, g1, g2⟩ := EdwardsExtended.double_repr I b.1 (safeProg_true _ _)
        refine ⟨false, sum, dbl, hb, f1, g1, close (m' := 2 * m + 1) ?_ ?_ ?_⟩
        · rw [pow_succ]; omega
        · rw [if_neg (by simp), show 2 * m + 1 = m + (m + 1) by ring, add_smul]; exact f2
        · rw [if_neg (by simp), show 2 * m + 1 + 1 = (m + 1) + (m + 1) by ring, add_smul]
          exact g2)
    C.nbits 0 s (by omega) ⟨0, by simp [Nat.div_eq_of_lt hx], fun h => absurd h (by omega),
      by simpa using h0, by simpa using h1, by simpa using hs⟩
  refine ⟨s', e1, ?_⟩
  rw [Nat.sub_self, pow_zero, Nat.div_one] at e2
  rw [show 2 ^ C.nbits - 1 - x = m by omega]
  exact e3 hn

/-- The ladder started with representations of `0` and `P` computes `(2 ^ nbits - 1 - x) P`, where
`x` is the number whose bits the loop reads. -/
theorem ladder_mult (I : C.Exact K d w den) (hM : C.Selects w) {k : S} {x : Nat}
    (hn : 0 < C.nbits)
    (hx : x < 2 ^ C.nbits) (hk : ∀ i < C.nbits, C.bitNormalized k i = .ok (x.testBit i))
    {P : EdPoint K d} {s : Ladder S} (h0 : s.r0.Repr w den (0 : EdPoint K d))
    (h1 : s.r1.Repr w den P) :
    ∃ s', Ladder.loop C k Ladder.body C.nbits 0 s = .ok (s', Ladder.events C.nbits 0) ∧
      s'.r0.Repr w den ((2 ^ C.nbits - 1 - x) • P) := by
  refine ladder_mult' I hM hn hx hk h0.1 h1 ?_
  have := EdwardsExtended.add_repr I h0 h1 (safeProg_true _ _)
  rwa [zero_add] at this

end
end Verif
