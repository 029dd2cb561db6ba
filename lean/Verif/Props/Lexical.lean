import Verif.Rust.Grammar
import Mathlib.Data.Nat.Digits.Defs

/-!
# Property C94: the reader finds the words, numbers and symbols that were written

The reader of the sources (`Rust/Grammar.lean`) begins by cutting lines into tokens.  Here lines are written from lexical elements by an
independent definition (characters of the Lean library, digits of numbers in base 2, 10 or 16 with their value by `Nat.ofDigits`), and the
reader finds in the line what was written, with the values of all numbers.
-/

namespace Verif
open Rust Grammar

/-- Lexical elements of Rust, as far as the sources have them. -/
inductive Lexeme where
  /-- an identifier or keyword -/
  | word (c : Char) (cs : List Char)
  /-- a number in decimal, hexadecimal or binary notation with the most significant digit first, possibly with leading zeros and capital
  letters, and with a suffix -/
  | dec (ds : List Nat) (suffix : List Char)
  | hex (capital : Bool) (ds : List Nat) (suffix : List Char)
  | bin (ds : List Nat) (suffix : List Char)
  /-- a string without escapes -/
  | str (s : List Char)
  | sym (s : String)

namespace Lexeme

/-- Characters of words. -/
def wordChar (c : Char) : Bool := c.isAlphanum || c == '_'

/-- The symbols of the sources. -/
def symbols : List String :=
  ["+", "-", "*", "/", "%", "&", "|", "(", ")", "[", "]", ";", "=", ".", ":", "{", "}", "!", ",", "<", ">", "#",
   "::", "->", "==", "<<", ">>", "+=", "-=", "*=", "/=", "&=", "|=", ".."]

/-- Suffixes are names of integer types. -/
def Suffix (s : List Char) : Prop := s = [] ∨ ∃ c cs, s = c :: cs ∧ (c = 'i' ∨ c = 'u') ∧ ∀ d ∈ cs, wordChar d

def Ok : Lexeme → Prop
  | word c cs => (c.isAlpha || c == '_') = true ∧ ∀ d ∈ cs, wordChar d
  | dec ds s => ds ≠ [] ∧ (∀ d ∈ ds, d < 10) ∧ Suffix s
  | hex _ ds s => (∀ d ∈ ds, d < 16) ∧ Suffix s
  | bin ds s => (∀ d ∈ ds, d < 2) ∧ Suffix s
  | str s => '"' ∉ s ∧ '\\' ∉ s
  | sym s => s ∈ symbols

/-- How it is written. -/
def text : Lexeme → List Char
  | word c cs => c :: cs
  | dec ds s => ds.map Nat.digitChar ++ s
  | hex capital ds s => '0' :: 'x' :: (ds.map fun d => if capital then d.digitChar.toUpper else d.digitChar) ++ s
  | bin ds s => '0' :: 'b' :: ds.map Nat.digitChar ++ s
  | str s => '"' :: s ++ ['"']
  | sym s => s.toList

/-- Words as numbers: their characters in base 256. -/
def code (cs : List Char) : Nat := Nat.ofDigits 256 (cs.map Char.toNat).reverse

/-- The token. -/
def tok : Lexeme → Tok
  | word c cs => .id (code (c :: cs))
  | dec ds s => .num (Nat.ofDigits 10 ds.reverse) (code s)
  | hex _ ds s => .num (Nat.ofDigits 16 ds.reverse) (code s)
  | bin ds s => .num (Nat.ofDigits 2 ds.reverse) (code s)
  | str s => .str (s.map Char.toNat)
  | sym s => .sym (code s.toList)

/-- A line: the elements, each with a space after it. -/
def line (ls : List Lexeme) : List Char := ls.flatMap fun l => l.text ++ [' ']

theorem foldl_ofDigits (b : Nat) : ∀ (ds : List Nat) (acc : Nat),
    ds.foldl (fun a d => a * b + d) acc = acc * b ^ ds.length + Nat.ofDigits b ds.reverse
  | [], acc => by simp
  | d :: ds, acc => by
    rw [List.foldl_cons, foldl_ofDigits, List.reverse_cons, Nat.ofDigits_append, List.length_cons, List.length_reverse, Nat.ofDigits_singleton]
    ring

theorem char_eq (c d : Char) : (c == d) = Nat.beq c.toNat d.toNat := by
  rw [Bool.eq_iff_iff, beq_iff_eq, Nat.beq_eq, Char.toNat_inj]

theorem letter_eq (c : Char) : isLetter c.toNat = (c.isAlpha || c == '_') := by
  rw [char_eq, Bool.eq_iff_iff]
  simp only [isLetter, Char.isAlpha, Char.isUpper, Char.isLower, Bool.or_eq_true, Bool.and_eq_true, Nat.ble_eq, decide_eq_true_eq,
    UInt32.le_iff_toNat_le, ge_iff_le]
  exact or_congr (or_comm) Iff.rfl

theorem digit_eq (c : Char) : isDigit c.toNat = c.isDigit := by
  rw [Bool.eq_iff_iff]
  simp only [isDigit, Char.isDigit, Bool.and_eq_true, Nat.ble_eq, decide_eq_true_eq, UInt32.le_iff_toNat_le, ge_iff_le]
  exact Iff.rfl

theorem wordChar_eq (c : Char) : (isLetter c.toNat || isDigit c.toNat) = wordChar c := by
  rw [letter_eq, digit_eq, wordChar, Char.isAlphanum]
  cases c.isAlpha <;> cases c.isDigit <;> cases c == '_' <;> rfl

theorem takeWord_eq {r : List Nat} : ∀ (cs : List Char) (acc : Nat), (∀ d ∈ cs, wordChar d) →
    takeWord (cs.map Char.toNat ++ 32 :: r) acc = ((cs.map Char.toNat).foldl (fun a d => a * 256 + d) acc, 32 :: r)
  | [], acc, _ => rfl
  | c :: cs, acc, h => by
    have hc := h c List.mem_cons_self
    rw [List.map_cons, List.cons_append, takeWord, wordChar_eq, hc, cond_true, takeWord_eq cs _ fun d hd => h d (List.mem_cons_of_mem _ hd)]
    rfl

theorem takeNum_eq {base : Nat} {f : Nat → Nat} (hf : ∀ d < base, digitVal base (f d) = some d) {r : List Nat}
    (hr : ∀ c ∈ r.head?, digitVal base c = none) : ∀ (ds : List Nat) (acc : Nat), (∀ d ∈ ds, d < base) →
    takeNum base (ds.map f ++ r) acc = (ds.foldl (fun a d => a * base + d) acc, r)
  | [], acc, _ => by
    cases r with
    | nil => rfl
    | cons c r => rw [List.map_nil, List.nil_append, takeNum, hr c (by simp)]; rfl
  | d :: ds, acc, h => by
    rw [List.map_cons, List.cons_append, takeNum, hf d (h d List.mem_cons_self)]
    exact takeNum_eq hf hr ds _ fun d hd => h d (List.mem_cons_of_mem _ hd)

theorem number_eq {base : Nat} (hb : base ≤ 16) {f : Nat → Nat} (hf : ∀ d < base, digitVal base (f d) = some d) {ds : List Nat}
    (hd : ∀ d ∈ ds, d < base) {s : List Char} (hs : Suffix s) (r : List Nat) :
    number base (ds.map f ++ (s.map Char.toNat ++ 32 :: r)) = (.num (Nat.ofDigits base ds.reverse) (code s), 32 :: r) := by
  have none_of : ∀ c, (c = 32 ∨ c = 105 ∨ c = 117) → digitVal base c = none := by
    intro c h
    have : digitVal base c = bif Nat.blt 16 base then some 16 else none := by
      rcases h with rfl | rfl | rfl <;> rfl
    rw [this, show Nat.blt 16 base = false from Bool.eq_false_iff.mpr fun h => by have := Nat.le_of_ble_eq_true h; omega]; rfl
  have hh : ∀ c ∈ (s.map Char.toNat ++ 32 :: r).head?, digitVal base c = none := by
    intro c hc
    apply none_of
    rcases hs with rfl | ⟨e, es, rfl, rfl | rfl, -⟩ <;> simp at hc <;> subst hc
    · exact .inl rfl
    · exact .inr (.inl rfl)
    · exact .inr (.inr rfl)
  have hw : ∀ d ∈ s, wordChar d := by
    rcases hs with rfl | ⟨e, es, rfl, he, h⟩
    · intro d h; cases h
    · intro d hd
      rcases List.mem_cons.1 hd with rfl | hd
      · rcases he with rfl | rfl <;> rfl
      · exact h d hd
  rw [number, takeNum_eq hf hh ds 0 hd]
  simp only []
  rw [takeWord_eq s 0 hw, foldl_ofDigits, foldl_ofDigits, Nat.zero_mul, Nat.zero_mul, Nat.zero_add, Nat.zero_add]
  rfl

theorem digit_dec : ∀ d < 10, digitVal 10 d.digitChar.toNat = some d := by decide
theorem digit_bin : ∀ d < 2, digitVal 2 d.digitChar.toNat = some d := by decide
theorem digit_hex (up : Bool) : ∀ d < 16, digitVal 16 (if up then d.digitChar.toUpper else d.digitChar).toNat = some d := by
  cases up <;> decide

theorem takeStr_eq {r : List Nat} : ∀ s : List Char, '"' ∉ s → '\\' ∉ s →
    takeStr (s.map Char.toNat ++ 34 :: r) = some (s.map Char.toNat, r)
  | [], _, _ => rfl
  | c :: s, h1, h2 => by
    have e1 : Nat.beq c.toNat 34 = false :=
      (char_eq c '"').symm.trans (beq_eq_false_iff_ne.mpr fun h => h1 (h ▸ List.mem_cons_self))
    have e2 : Nat.beq c.toNat 92 = false :=
      (char_eq c '\\').symm.trans (beq_eq_false_iff_ne.mpr fun h => h2 (h ▸ List.mem_cons_self))
    rw [List.map_cons, List.cons_append, takeStr, e1, e2, takeStr_eq s (fun h => h1 (List.mem_cons_of_mem _ h)) fun h => h2 (List.mem_cons_of_mem _ h)]
    rfl

theorem step_word {c : Nat} (hl : isLetter c = true) (n : Nat) (cs : List Nat) :
    lexLine (n + 1) (c :: cs) = (Tok.id (takeWord cs c).1 :: ·) <$> lexLine n (takeWord cs c).2 := by
  have h32 : Nat.beq c 32 = false := by
    rw [Bool.eq_false_iff]
    intro e
    rw [Nat.beq_eq] at e
    rw [e] at hl
    cases hl
  rw [lexLine.eq_def]
  simp only [h32, hl, cond_false, cond_true]

theorem step_num {c : Nat} (hc : isDigit c = true) (n : Nat) (cs : List Nat) :
    lexLine (n + 1) (c :: cs) = ((numAt c cs).1 :: ·) <$> lexLine n (numAt c cs).2 := by
  have hc' := hc
  simp only [isDigit, Bool.and_eq_true, Nat.ble_eq] at hc'
  have hl : isLetter c = false := by
    rw [Bool.eq_false_iff]
    intro h
    simp only [isLetter, Bool.or_eq_true, Bool.and_eq_true, Nat.ble_eq, Nat.beq_eq] at h
    omega
  have h32 : Nat.beq c 32 = false := by
    rw [Bool.eq_false_iff]
    intro h
    rw [Nat.beq_eq] at h
    omega
  rw [lexLine.eq_def]
  simp only [h32, hl, hc, cond_false, cond_true]

theorem step_str (n : Nat) {cs s r : List Nat} (h : takeStr cs = some (s, r)) :
    lexLine (n + 1) (34 :: cs) = (Tok.str s :: ·) <$> lexLine n r := by
  show (match takeStr cs with | some (s, r) => (Tok.str s :: ·) <$> lexLine n r | none => none) = _
  rw [h]

/-- One element at the beginning of a line (helper lemma). -/
theorem lex_one {l : Lexeme} (h : l.Ok) (n : Nat) (r : List Nat) :
    lexLine (n + 2) (l.text.map Char.toNat ++ 32 :: r) = (l.tok :: ·) <$> lexLine n r := by
  have sp : lexLine (n + 1) (32 :: r) = lexLine n r := rfl
  cases l with
  | word c cs =>
    rw [text, List.map_cons, List.cons_append, step_word ((letter_eq c).trans h.1), takeWord_eq cs _ h.2, sp]
    have e := foldl_ofDigits 256 ((c :: cs).map Char.toNat) 0
    rw [List.map_cons, List.foldl_cons, Nat.zero_mul, Nat.zero_mul, Nat.zero_add, Nat.zero_add] at e
    simp only [e]
    rfl
  | dec ds s =>
    obtain ⟨h0, h1, h2⟩ := h
    have e := number_eq (by decide) digit_dec h1 h2 r
    rw [text, List.map_append, List.map_map, List.append_assoc]
    change lexLine _ (ds.map (fun d => d.digitChar.toNat) ++ _) = _
    have key : ∃ c cs, isDigit c = true ∧ ds.map (fun d => d.digitChar.toNat) ++ (s.map Char.toNat ++ 32 :: r) = c :: cs ∧
        cs.headD 0 ≠ 120 ∧ cs.headD 0 ≠ 98 ∧ cs ≠ [] := by
      obtain ⟨d, ds, rfl⟩ := List.exists_cons_of_ne_nil h0
      have dig : ∀ d < 10, isDigit d.digitChar.toNat = true ∧ d.digitChar.toNat ≠ 120 ∧ d.digitChar.toNat ≠ 98 := by decide
      refine ⟨_, _, (dig d (h1 d List.mem_cons_self)).1, rfl, ?_⟩
      cases ds with
      | cons d' ds =>
        have := dig d' (h1 d' (by simp))
        exact ⟨this.2.1, this.2.2, by simp⟩
      | nil =>
        rcases h2 with rfl | ⟨e, es, rfl, rfl | rfl, -⟩
        · exact ⟨by simp, by simp, by simp⟩
        · exact ⟨show (105 : Nat) ≠ 120 by decide, show (105 : Nat) ≠ 98 by decide, by simp⟩
        · exact ⟨show (117 : Nat) ≠ 120 by decide, show (117 : Nat) ≠ 98 by decide, by simp⟩
    obtain ⟨c, cs, k1, k2, k3, k4, k5⟩ := key
    rw [k2] at e ⊢
    have en : numAt c cs = number 10 (c :: cs) := by
      obtain ⟨x, cs, rfl⟩ := List.exists_cons_of_ne_nil k5
      have x1 : Nat.beq x 120 = false := Bool.eq_false_iff.mpr fun h => k3 ((Nat.beq_eq ▸ h : x = 120))
      have x2 : Nat.beq x 98 = false := Bool.eq_false_iff.mpr fun h => k4 ((Nat.beq_eq ▸ h : x = 98))
      simp only [numAt, x1, x2, Bool.and_false, cond_false]
    rw [step_num k1, en, e, sp]
    rfl
  | hex up ds s =>
    have e := number_eq (by decide) (digit_hex up) h.1 h.2 r
    rw [text, List.cons_append, List.cons_append, List.map_cons, List.map_cons, List.map_append, List.map_map, List.cons_append,
      List.cons_append, List.append_assoc, step_num (by rfl)]
    have en : ∀ cs, numAt '0'.toNat ('x'.toNat :: cs) = number 16 cs := fun _ => rfl
    rw [en]
    change (((number 16 (ds.map (fun d => (if up = true then d.digitChar.toUpper else d.digitChar).toNat) ++ _)).1 :: ·) <$> lexLine (n + 1)
      (number 16 (ds.map (fun d => (if up = true then d.digitChar.toUpper else d.digitChar).toNat) ++ _)).2) = _
    rw [e, sp]
    rfl
  | bin ds s =>
    have e := number_eq (by decide) digit_bin h.1 h.2 r
    rw [text, List.cons_append, List.cons_append, List.map_cons, List.map_cons, List.map_append, List.map_map, List.cons_append,
      List.cons_append, List.append_assoc, step_num (by rfl)]
    have en : ∀ cs, numAt '0'.toNat ('b'.toNat :: cs) = number 2 cs := fun _ => rfl
    rw [en]
    change (((number 2 (ds.map (fun d => d.digitChar.toNat) ++ _)).1 :: ·) <$> lexLine (n + 1)
      (number 2 (ds.map (fun d => d.digitChar.toNat) ++ _)).2) = _
    rw [e, sp]
    rfl
  | str s =>
    have e := takeStr_eq (r := 32 :: r) s h.1 h.2
    have e2 : (str s).text.map Char.toNat ++ 32 :: r = 34 :: (s.map Char.toNat ++ 34 :: 32 :: r) := by
      rw [text, List.map_append, List.map_cons, List.cons_append, List.cons_append, List.append_assoc]
      rfl
    rw [e2, step_str (n + 1) e, sp]
    rfl
  | sym s =>
    have h : s ∈ symbols := h
    simp only [symbols, List.mem_cons, List.not_mem_nil, or_false] at h
    rcases h with h | h | h | h | h | h | h | h | h | h | h | h | h | h | h | h | h | h | h | h | h | h | h | h | h | h | h | h | h | h | h | h | h | h <;>
      subst h <;> rfl

/-- A whole line, before something that is known (helper lemma). -/
theorem lex_line {r : List Nat} {ts : List Tok} (hr : ∀ n, r.length < n → lexLine n r = some ts) : ∀ (ls : List Lexeme), (∀ l ∈ ls, l.Ok) →
    ∀ n, ((line ls).map Char.toNat ++ r).length < n → lexLine n ((line ls).map Char.toNat ++ r) = some (ls.map tok ++ ts)
  | [], _, n, hn => hr n hn
  | l :: ls, h, n, hn => by
    have e : (line (l :: ls)).map Char.toNat ++ r = l.text.map Char.toNat ++ 32 :: ((line ls).map Char.toNat ++ r) := by
      rw [line, List.flatMap_cons, List.map_append, List.map_append, List.append_assoc, List.append_assoc]
      rfl
    have pos : 0 < (l.text.map Char.toNat).length := by
      rw [List.length_map]
      have hl := h l List.mem_cons_self
      cases l with
      | dec ds s =>
        obtain ⟨d, ds, rfl⟩ := List.exists_cons_of_ne_nil hl.1
        exact Nat.succ_pos _
      | sym s =>
        have : ∀ s ∈ symbols, 0 < s.toList.length := by decide
        exact this s hl
      | _ => exact Nat.succ_pos _
    rw [e] at hn ⊢
    rw [List.length_append, List.length_cons] at hn
    obtain ⟨m, rfl⟩ : ∃ m, n = m + 2 := ⟨n - 2, by omega⟩
    rw [lex_one (h l List.mem_cons_self), lex_line hr ls (fun x hx => h x (List.mem_cons_of_mem _ hx)) m (by omega)]
    rfl

end Lexeme
open Lexeme

/-- C94: in lines written from lexical elements the reader finds just these elements. -/
theorem C94_lines (ls : List (List Lexeme)) (h : ∀ l ∈ ls, ∀ x ∈ l, x.Ok) :
    lex (ls.map fun l => (line l).map Char.toNat) = some (ls.flatten.map tok) := by
  induction ls with
  | nil => rfl
  | cons l ls ih =>
    have e := lex_line (r := []) (ts := []) (fun n hn => by obtain ⟨m, rfl⟩ : ∃ m, n = m + 1 := ⟨n - 1, by simp at hn; omega⟩; rfl) l
      (h l List.mem_cons_self) (((line l).map Char.toNat).length + 1) (by simp)
    rw [List.append_nil, List.append_nil] at e
    rw [List.map_cons, lex, e, ih fun x hx => h x (List.mem_cons_of_mem _ hx), List.flatten_cons, List.map_append]
    rfl

/-- C94: a comment at the end of a line is not read, whatever it says. -/
theorem C94_comment (l : List Lexeme) (h : ∀ x ∈ l, x.Ok) (comment : List Char) :
    lex [(line l ++ '/' :: '/' :: comment).map Char.toNat] = some (l.map tok) := by
  have e := lex_line (r := 47 :: 47 :: comment.map Char.toNat) (ts := [])
    (fun n hn => by obtain ⟨m, rfl⟩ : ∃ m, n = m + 1 := ⟨n - 1, by simp at hn; omega⟩; rfl) l h _ (Nat.lt_succ_self _)
  rw [List.map_append]
  change lex [(line l).map Char.toNat ++ 47 :: 47 :: comment.map Char.toNat] = _
  rw [lex, e, List.append_nil]
  show some (l.map tok ++ []) = _
  rw [List.append_nil]

/-- C94: numbers are read with their value, in all three notations. -/
theorem C94_numbers (n : Nat) (hn : n ≠ 0) :
    lex [(line [.dec (Nat.digits 10 n).reverse []]).map Char.toNat] = some [.num n 0] ∧
    lex [(line [.hex false (Nat.digits 16 n).reverse []]).map Char.toNat] = some [.num n 0] ∧
    lex [(line [.hex true (Nat.digits 16 n).reverse []]).map Char.toNat] = some [.num n 0] ∧
    lex [(line [.bin (Nat.digits 2 n).reverse []]).map Char.toNat] = some [.num n 0] := by
  have d : ∀ b, 1 < b → ∀ d ∈ (Nat.digits b n).reverse, d < b := fun b hb d hd => Nat.digits_lt_base hb (List.mem_reverse.1 hd)
  have v : ∀ b, Nat.ofDigits b (Nat.digits b n).reverse.reverse = n := fun b => by rw [List.reverse_reverse, Nat.ofDigits_digits]
  have ne : (Nat.digits 10 n).reverse ≠ [] := by simpa [Nat.digits_eq_nil_iff_eq_zero] using hn
  have one : ∀ x : Lexeme, x.Ok → lex [(line [x]).map Char.toNat] = some [x.tok] := fun x hx =>
    C94_lines [[x]] (by simpa using hx)
  refine ⟨(one _ ?_).trans ?_, (one _ ?_).trans ?_, (one _ ?_).trans ?_, (one _ ?_).trans ?_⟩
  · exact ⟨ne, d 10 (by decide), .inl rfl⟩
  · rw [tok, v]; rfl
  · exact ⟨d 16 (by decide), .inl rfl⟩
  · rw [tok, v]; rfl
  · exact ⟨d 16 (by decide), .inl rfl⟩
  · rw [tok, v]; rfl
  · exact ⟨d 2 (by decide), .inl rfl⟩
  · rw [tok, v]; rfl

/-- C94: lines with different tokens are different lines. -/
theorem C94_unambiguous {k l : List Lexeme} (hk : ∀ x ∈ k, x.Ok) (hl : ∀ x ∈ l, x.Ok) (h : line k = line l) : k.map tok = l.map tok := by
  have e1 := C94_lines [k] (by simpa using hk)
  have e2 := C94_lines [l] (by simpa using hl)
  rw [List.map_singleton] at e1 e2
  rw [h, e2] at e1
  simpa using (Option.some.inj e1).symm

/-! ### Cases -/

/-- A line of src/field/mod_e222_117.rs (lines 539 and 540), with spaces between the elements, and a comment. -/
example : lex ["let d0 = m_0_0 + ( ( m_0_1 & 0x1fffffff ) << 29 ) + // 0x2".toList.map Char.toNat] =
    some [.id (code "let".toList), .id (code "d0".toList), .sym (code "=".toList), .id (code "m_0_0".toList), .sym (code "+".toList),
      .sym (code "(".toList), .sym (code "(".toList), .id (code "m_0_1".toList), .sym (code "&".toList), .num 536870911 0, .sym (code ")".toList),
      .sym (code "<<".toList), .num 29 0, .sym (code ")".toList), .sym (code "+".toList)] :=
  C94_comment [.word 'l' ['e', 't'], .word 'd' ['0'], .sym "=", .word 'm' ['_', '0', '_', '0'], .sym "+", .sym "(", .sym "(",
    .word 'm' ['_', '0', '_', '1'], .sym "&", .hex false [1, 15, 15, 15, 15, 15, 15, 15] [], .sym ")", .sym "<<", .dec [2, 9] [], .sym ")", .sym "+"]
    (by simp [Ok, Suffix, symbols, wordChar]) " 0x2".toList

end Verif
