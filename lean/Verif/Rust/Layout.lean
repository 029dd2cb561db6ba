import Verif.Rust.Grammar
import Mathlib.Tactic.NormNum

/-!
# The layout of a text does not matter to the reader

Lemmas about the lexer of `Grammar.lean`, for all lines: the fuel does not matter; spaces at the beginning
of a line, comments at its end and blank lines change nothing; a line may be broken at a space.
-/

namespace Verif.Rust.Grammar

theorem takeWord_length : ∀ (l : List Nat) (a : Nat), (takeWord l a).2.length ≤ l.length
  | [], _ => le_refl _
  | c :: cs, a => by
    rw [takeWord]
    cases isLetter c || isDigit c
    · exact le_refl _
    · exact (takeWord_length cs _).trans (Nat.le_succ _)

theorem takeNum_length (b : Nat) : ∀ (l : List Nat) (a : Nat), (takeNum b l a).2.length ≤ l.length
  | [], _ => le_refl _
  | c :: cs, a => by
    rw [takeNum]
    cases digitVal b c
    · exact le_refl _
    · exact (takeNum_length b cs _).trans (Nat.le_succ _)

theorem takeStr_length : ∀ {l s r : List Nat}, takeStr l = some (s, r) → r.length < l.length
  | [], _, _, h => by simp [takeStr] at h
  | c :: cs, s, r, h => by
    rw [takeStr] at h
    cases h1 : Nat.beq c 34 <;> simp only [h1, cond_true, cond_false] at h
    · cases h2 : Nat.beq c 92 <;> simp only [h2, cond_true, cond_false] at h
      · cases h3 : takeStr cs with
        | none => simp [h3] at h
        | some q =>
          obtain ⟨s', r'⟩ := q
          simp only [h3, Option.some.injEq, Prod.mk.injEq] at h
          have := takeStr_length h3
          rw [← h.2]
          simp only [List.length_cons]; omega
      · simp at h
    · simp only [Option.some.injEq, Prod.mk.injEq] at h
      obtain ⟨_, rfl⟩ := h
      simp

theorem number_length (b : Nat) (l : List Nat) : (number b l).2.length ≤ l.length := by
  simp only [number]
  exact (takeWord_length _ _).trans (takeNum_length _ _ _)

theorem digitVal_of_digit {c : Nat} (h : isDigit c = true) : digitVal 10 c = some (c - 48) := by
  have h' := h
  simp only [isDigit, Bool.and_eq_true, Nat.ble_eq] at h'
  have : Nat.blt (c - 48) 10 = true := by simp [Nat.blt]; omega
  simp only [digitVal, h, cond_true, this]

/-- A decimal number has at least one digit. -/
theorem number10_length {c : Nat} (h : isDigit c = true) (cs : List Nat) :
    (number 10 (c :: cs)).2.length ≤ cs.length := by
  simp only [number, takeNum, digitVal_of_digit h]
  exact (takeWord_length _ _).trans (takeNum_length _ _ _)

theorem numAt_length {c : Nat} (h : isDigit c = true) (cs : List Nat) :
    (numAt c cs).2.length ≤ cs.length := by
  cases cs with
  | nil => exact number10_length h _
  | cons d cs =>
    rw [numAt]
    cases Nat.beq c 48 && Nat.beq d 120
    · cases Nat.beq c 48 && Nat.beq d 98
      · exact number10_length h _
      · exact (number_length _ _).trans (Nat.le_succ _)
    · exact (number_length _ _).trans (Nat.le_succ _)

/-- The fuel does not matter if there is enough of it. -/
theorem lexLine_fuel : ∀ (n m : Nat) (l : List Nat), l.length < n → l.length < m → lexLine n l = lexLine m l
  | 0, _, _, h, _ => absurd h (Nat.not_lt_zero _)
  | _ + 1, 0, _, _, h => absurd h (Nat.not_lt_zero _)
  | n + 1, m + 1, [], _, _ => by rw [lexLine, lexLine]
  | n + 1, m + 1, c :: cs, hn, hm => by
    simp only [List.length_cons, Nat.add_lt_add_iff_right] at hn hm
    have ih : ∀ r : List Nat, r.length ≤ cs.length → lexLine n r = lexLine m r :=
      fun r hr => lexLine_fuel n m r (by omega) (by omega)
    unfold lexLine; dsimp only
    cases Nat.beq c 32
    swap
    · exact ih cs (le_refl _)
    cases isLetter c
    swap
    · simp only [cond_true, cond_false, ih _ (takeWord_length cs c)]
    cases hd : isDigit c
    swap
    · simp only [cond_true, cond_false, ih _ (numAt_length hd cs)]
    cases Nat.beq c 34
    swap
    · simp only [cond_true, cond_false]
      cases h : takeStr cs with
      | none => rfl
      | some q => simp only [ih q.2 (takeStr_length h).le]
    cases Nat.beq c 39
    swap
    · simp only [cond_true, cond_false, ih _ (takeWord_length cs 0)]
    simp only [cond_false]
    cases cs with
    | nil => simp only [ih [] (le_refl _)]
    | cons d cs' => simp only [ih (d :: cs') (le_refl _), ih cs' (Nat.le_succ _)]

/-- The tokens of a line, with enough fuel. -/
def toks (l : List Nat) : Option (List Tok) := lexLine (l.length + 1) l

theorem lexLine_eq {n : Nat} {l : List Nat} (h : l.length < n) : lexLine n l = toks l :=
  lexLine_fuel _ _ _ h (Nat.lt_succ_self _)

theorem toks_space (l : List Nat) : toks (32 :: l) = toks l := by
  change lexLine (32 :: l).length l = _; exact lexLine_eq (by simp)

theorem toks_indent (k : Nat) (l : List Nat) : toks (List.replicate k 32 ++ l) = toks l := by
  induction k with
  | zero => rfl
  | succ k ih => rw [List.replicate_succ, List.cons_append, toks_space, ih]

theorem toks_comment (l : List Nat) : toks (47 :: 47 :: l) = some [] := by
  rw [toks, lexLine]; rfl

theorem lex_append : ∀ (a b : List (List Nat)),
    lex (a ++ b) = (lex a).bind fun s => (lex b).map (s ++ ·)
  | [], b => by simp [lex]
  | l :: a, b => by
    rw [List.cons_append, lex, lex, lex_append a b]
    cases lexLine (l.length + 1) l <;> cases lex a <;> cases lex b <;> simp

theorem lex_cons (l : List Nat) (b : List (List Nat)) :
    lex (l :: b) = (toks l).bind fun s => (lex b).map (s ++ ·) := by
  rw [lex, toks]; cases lexLine (l.length + 1) l <;> rfl

/-! ### Layout -/

/-- One token of a line. -/
theorem toks_cons (c : Nat) (cs : List Nat) : toks (c :: cs) =
    bif Nat.beq c 32 then toks cs
    else bif isLetter c then (Tok.id (takeWord cs c).1 :: ·) <$> toks (takeWord cs c).2
    else bif isDigit c then ((numAt c cs).1 :: ·) <$> toks (numAt c cs).2
    else bif Nat.beq c 34 then
      match takeStr cs with
      | some (s, r) => (Tok.str s :: ·) <$> toks r
      | none => none
    else bif Nat.beq c 39 then
      bif Nat.beq ((takeWord cs 0).2.headD 0) 39 then none else toks (takeWord cs 0).2
    else match cs with
      | d :: cs' =>
        bif Nat.beq c 47 && Nat.beq d 47 then some []
        else bif isPair c d then (Tok.sym (c * 256 + d) :: ·) <$> toks cs'
        else bif isSym c then (Tok.sym c :: ·) <$> toks cs
        else none
      | [] => bif isSym c then (Tok.sym c :: ·) <$> toks [] else none := by
  have ih : ∀ r : List Nat, r.length ≤ cs.length → lexLine (cs.length + 1) r = toks r :=
    fun r hr => lexLine_eq (by omega)
  rw [toks, List.length_cons]
  unfold lexLine; dsimp only
  cases Nat.beq c 32
  swap
  · exact ih cs le_rfl
  cases isLetter c
  swap
  · simp only [cond_true, cond_false, ih _ (takeWord_length cs c)]
  cases hd : isDigit c
  swap
  · simp only [cond_true, cond_false, ih _ (numAt_length hd cs)]
  cases Nat.beq c 34
  swap
  · simp only [cond_true, cond_false]
    cases h : takeStr cs with
    | none => rfl
    | some q => simp only [ih q.2 (takeStr_length h).le]
  cases Nat.beq c 39
  swap
  · simp only [cond_true, cond_false, ih _ (takeWord_length cs 0)]
  simp only [cond_false]
  cases cs with
  | nil => simp only [ih [] le_rfl]
  | cons d cs' => simp only [ih (d :: cs') le_rfl, ih cs' (Nat.le_succ _)]

theorem takeWord_append (u : List Nat) : ∀ (l : List Nat) (a : Nat),
    takeWord (l ++ 32 :: u) a = ((takeWord l a).1, (takeWord l a).2 ++ 32 :: u)
  | [], _ => rfl
  | c :: cs, a => by
    rw [List.cons_append, takeWord, takeWord]
    cases isLetter c || isDigit c
    · rfl
    · exact takeWord_append u cs _

theorem takeNum_append {b : Nat} (hb : b ≤ 16) (u : List Nat) : ∀ (l : List Nat) (a : Nat),
    takeNum b (l ++ 32 :: u) a = ((takeNum b l a).1, (takeNum b l a).2 ++ 32 :: u)
  | [], a => by
    have : digitVal b 32 = none := by
      have : Nat.blt 16 b = false := by
        rw [Bool.eq_false_iff, ne_eq, Nat.blt_eq]; omega
      simp only [digitVal, show isDigit 32 = false from rfl,
        show (Nat.ble 97 32 && Nat.ble 32 102) = false from rfl,
        show (Nat.ble 65 32 && Nat.ble 32 70) = false from rfl, cond_false, this]
    simp only [List.nil_append, takeNum, this]
  | c :: cs, a => by
    rw [List.cons_append, takeNum, takeNum]
    cases digitVal b c
    · rfl
    · exact takeNum_append hb u cs _

theorem takeStr_append (v : List Nat) : ∀ {l s r : List Nat}, takeStr l = some (s, r) →
    takeStr (l ++ v) = some (s, r ++ v)
  | [], _, _, h => by simp [takeStr] at h
  | c :: cs, s, r, h => by
    rw [List.cons_append]
    rw [takeStr] at h ⊢
    cases h1 : Nat.beq c 34 <;> simp only [h1, cond_true, cond_false] at h ⊢
    · cases h2 : Nat.beq c 92 <;> simp only [h2, cond_true, cond_false] at h ⊢
      · cases h3 : takeStr cs with
        | none => simp [h3] at h
        | some q =>
          obtain ⟨s', r'⟩ := q
          simp only [h3, Option.some.injEq, Prod.mk.injEq] at h
          simp only [takeStr_append v h3, h.1, h.2]
      · simp at h
    · simp only [Option.some.injEq, Prod.mk.injEq] at h
      simp only [h.1, h.2]

theorem number_append {b : Nat} (hb : b ≤ 16) (l u : List Nat) :
    number b (l ++ 32 :: u) = ((number b l).1, (number b l).2 ++ 32 :: u) := by
  simp only [number, takeNum_append hb, takeWord_append]

theorem numAt_append (c : Nat) (l u : List Nat) :
    numAt c (l ++ 32 :: u) = ((numAt c l).1, (numAt c l).2 ++ 32 :: u) := by
  cases l with
  | nil =>
    have : numAt c ([] ++ 32 :: u) = number 10 ([c] ++ 32 :: u) := by
      simp only [List.nil_append, numAt, show Nat.beq 32 120 = false from rfl,
        show Nat.beq 32 98 = false from rfl, Bool.and_false, cond_false]
      rfl
    rw [this, number_append (by norm_num)]; rfl
  | cons d l =>
    rw [List.cons_append, numAt, numAt]
    cases Nat.beq c 48 && Nat.beq d 120
    · cases Nat.beq c 48 && Nat.beq d 98
      · exact number_append (by norm_num) (c :: d :: l) u
      · exact number_append (by norm_num) _ u
    · exact number_append (by norm_num) _ u

theorem takeWord_suffix : ∀ (l : List Nat) (a : Nat), (takeWord l a).2 <:+ l
  | [], _ => List.suffix_refl _
  | c :: cs, a => by
    rw [takeWord]
    cases isLetter c || isDigit c
    · exact List.suffix_refl _
    · exact (takeWord_suffix cs _).trans (List.suffix_cons _ _)

theorem takeNum_suffix (b : Nat) : ∀ (l : List Nat) (a : Nat), (takeNum b l a).2 <:+ l
  | [], _ => List.suffix_refl _
  | c :: cs, a => by
    rw [takeNum]
    cases digitVal b c
    · exact List.suffix_refl _
    · exact (takeNum_suffix b cs _).trans (List.suffix_cons _ _)

theorem takeStr_suffix : ∀ {l s r : List Nat}, takeStr l = some (s, r) → r <:+ l
  | [], _, _, h => by simp [takeStr] at h
  | c :: cs, s, r, h => by
    rw [takeStr] at h
    cases h1 : Nat.beq c 34 <;> simp only [h1, cond_true, cond_false] at h
    · cases h2 : Nat.beq c 92 <;> simp only [h2, cond_true, cond_false] at h
      · cases h3 : takeStr cs with
        | none => simp [h3] at h
        | some q =>
          obtain ⟨s', r'⟩ := q
          simp only [h3, Option.some.injEq, Prod.mk.injEq] at h
          exact (h.2 ▸ takeStr_suffix h3).trans (List.suffix_cons _ _)
      · simp at h
    · simp only [Option.some.injEq, Prod.mk.injEq] at h
      exact h.2 ▸ List.suffix_cons _ _

theorem number_suffix (b : Nat) (l : List Nat) : (number b l).2 <:+ l := by
  simp only [number]
  exact (takeWord_suffix _ _).trans (takeNum_suffix _ _ _)

theorem numAt_suffix (c : Nat) (l : List Nat) : (numAt c l).2 <:+ c :: l := by
  cases l with
  | nil => exact number_suffix _ _
  | cons d l =>
    rw [numAt]
    cases Nat.beq c 48 && Nat.beq d 120
    · cases Nat.beq c 48 && Nat.beq d 98
      · exact number_suffix 10 (c :: d :: l)
      · exact (number_suffix _ _).trans ⟨[c, d], rfl⟩
    · exact (number_suffix _ _).trans ⟨[c, d], rfl⟩

/-- `//` occurs in the line. -/
def HasComment (l : List Nat) : Prop := [47, 47] <:+: l

theorem HasComment.suffix {l r : List Nat} (h : HasComment r) (hs : r <:+ l) : HasComment l :=
  h.trans hs.isInfix

/-- What stands after a space is read by itself, unless the line has a comment before it. -/
theorem toks_append (u : List Nat) : ∀ (n : Nat) (l : List Nat) (s : List Tok), l.length < n →
    toks l = some s →
    (HasComment l ∧ toks (l ++ 32 :: u) = some s) ∨ toks (l ++ 32 :: u) = (toks u).map (s ++ ·)
  | 0, _, _, hn, _ => absurd hn (Nat.not_lt_zero _)
  | n + 1, [], s, _, h => by
    have : s = [] := by simpa [toks, lexLine, eq_comm] using h
    subst this
    right
    rw [List.nil_append, toks_space]
    cases toks u <;> rfl
  | n + 1, c :: cs, s, hn, h => by
    simp only [List.length_cons, Nat.add_lt_add_iff_right] at hn
    -- the rest after a token `t`
    have rest : ∀ (t : Tok) (r : List Nat), r.length ≤ cs.length → r <:+ c :: cs →
        (t :: ·) <$> toks r = some s →
        (HasComment (c :: cs) ∧ (t :: ·) <$> toks (r ++ 32 :: u) = some s) ∨
          (t :: ·) <$> toks (r ++ 32 :: u) = (toks u).map (s ++ ·) := by
      intro t r hr hs hq
      cases hr' : toks r with
      | none => simp [hr'] at hq
      | some s' =>
        have hs' : t :: s' = s := by simpa [hr'] using hq
        subst hs'
        rcases toks_append u n r s' (by omega) hr' with ⟨h1, h2⟩ | h2
        · exact Or.inl ⟨h1.suffix hs, by rw [h2]; rfl⟩
        · right; rw [h2]; cases toks u <;> rfl
    -- the rest after what is no token
    have skip : ∀ r : List Nat, r.length ≤ cs.length → r <:+ c :: cs → toks r = some s →
        (HasComment (c :: cs) ∧ toks (r ++ 32 :: u) = some s) ∨
          toks (r ++ 32 :: u) = (toks u).map (s ++ ·) := by
      intro r hr hs hq
      rcases toks_append u n r s (by omega) hq with ⟨h1, h2⟩ | h2
      · exact Or.inl ⟨h1.suffix hs, h2⟩
      · exact Or.inr h2
    rw [toks_cons] at h
    rw [List.cons_append, toks_cons]
    cases h32 : Nat.beq c 32 <;> rw [h32] at h
    swap
    · exact skip cs le_rfl (List.suffix_cons _ _) h
    cases hl : isLetter c <;> rw [hl] at h
    swap
    · rw [takeWord_append]
      exact rest _ _ (takeWord_length cs c) ((takeWord_suffix _ _).trans (List.suffix_cons _ _)) h
    cases hd : isDigit c <;> rw [hd] at h
    swap
    · rw [numAt_append]
      exact rest _ _ (numAt_length hd cs) (numAt_suffix _ _) h
    cases h34 : Nat.beq c 34 <;> rw [h34] at h
    swap
    · simp only [cond_true, cond_false] at h ⊢
      cases hq : takeStr cs with
      | none => simp [hq] at h
      | some q =>
        obtain ⟨x, r⟩ := q
        simp only [hq] at h
        simp only [takeStr_append _ hq]
        exact rest _ _ (takeStr_length hq).le ((takeStr_suffix hq).trans (List.suffix_cons _ _)) h
    cases h39 : Nat.beq c 39 <;> rw [h39] at h
    swap
    · simp only [cond_true, cond_false] at h ⊢
      rw [takeWord_append]
      have hr := takeWord_length cs 0
      have hs := (takeWord_suffix cs 0).trans (List.suffix_cons c cs)
      generalize (takeWord cs 0).2 = r at h hr hs
      cases r with
      | nil => exact skip [] hr hs h
      | cons d r =>
        simp only [List.cons_append, List.headD_cons] at h ⊢
        cases hd' : Nat.beq d 39 <;> rw [hd'] at h
        · exact skip (d :: r) hr hs h
        · exact absurd h (by simp)
    simp only [cond_false] at h ⊢
    cases cs with
    | nil =>
      simp only [List.nil_append, show Nat.beq 32 47 = false from rfl, Bool.and_false, cond_false]
      have : isPair c 32 = false := by simp [isPair, h32]
      rw [this]
      simp only [cond_false]
      cases hsy : isSym c <;> rw [hsy] at h
      · exact absurd h (by simp)
      · exact rest _ [] le_rfl (List.nil_suffix) h
    | cons d cs =>
      simp only [List.cons_append] at h ⊢
      cases hc : Nat.beq c 47 && Nat.beq d 47 <;> rw [hc] at h
      swap
      · simp only [Bool.and_eq_true, Nat.beq_eq] at hc
        obtain ⟨rfl, rfl⟩ := hc
        exact Or.inl ⟨⟨[], cs, rfl⟩, h⟩
      cases hp : isPair c d <;> rw [hp] at h
      swap
      · exact rest _ cs (Nat.le_succ _) ⟨[c, d], rfl⟩ h
      cases hsy : isSym c <;> rw [hsy] at h
      · exact absurd h (by simp)
      · exact rest _ (d :: cs) le_rfl (List.suffix_cons _ _) h

/-- A comment after a line does not matter. -/
theorem toks_append_comment {l : List Nat} {s : List Tok} (h : toks l = some s) (u : List Nat) :
    toks (l ++ 32 :: 47 :: 47 :: u) = some s := by
  rcases toks_append (47 :: 47 :: u) _ l s (Nat.lt_succ_self _) h with ⟨_, h2⟩ | h2
  · exact h2
  · rw [h2, toks_comment]; simp

/-- A line without comment may be broken at a space. -/
theorem toks_append_line {l : List Nat} {s : List Tok} (h : toks l = some s) (hc : ¬HasComment l)
    (u : List Nat) : toks (l ++ 32 :: u) = (toks u).map (s ++ ·) := by
  rcases toks_append u _ l s (Nat.lt_succ_self _) h with ⟨h1, _⟩ | h2
  · exact absurd h1 hc
  · exact h2

/-- The reader sees only the tokens of the lines. -/
theorem read_line {l l' : List Nat} (h : toks l = toks l') (a b : List (List Nat)) :
    read (a ++ l :: b) = read (a ++ l' :: b) := by
  rw [read, read, lex_append, lex_append, lex_cons, lex_cons, h]

theorem read_blank {l : List Nat} (h : toks l = some []) (a b : List (List Nat)) :
    read (a ++ l :: b) = read (a ++ b) := by
  rw [read, read, lex_append, lex_append, lex_cons, h]
  congr 1
  cases lex a <;> cases lex b <;> simp

theorem read_break {l : List Nat} {s : List Tok} (h : toks l = some s) (hc : ¬HasComment l)
    (u : List Nat) (a b : List (List Nat)) :
    read (a ++ (l ++ 32 :: u) :: b) = read (a ++ l :: u :: b) := by
  rw [read, read, lex_append, lex_append, lex_cons, lex_cons, lex_cons, h, toks_append_line h hc]
  congr 1
  cases lex a <;> cases lex b <;> cases toks u <;> simp

end Verif.Rust.Grammar
