import Verif.Rust.Grammar

/-!
# Property C95: the reader finds the expression that was written

The second half of the reader of the sources (`Rust/Grammar.lean`) makes expressions from tokens.  Here expressions are written with brackets
only where the table of precedences of the Rust reference needs them: method calls, field access and indexing bind strongest, then the prefix operators,
`as`, `* / %`, `+ -`, `<< >>`, `&`, `|` and `==`, and operators of the same line associate to the left.  The reader finds the expression.
-/

namespace Verif
open Rust Grammar

namespace Writer

/-- A line of the table. -/
def level : Expr → Nat
  | .bin .eq _ _ => 0
  | .bin .or _ _ => 1
  | .bin .and _ _ => 2
  | .bin .shl _ _ | .bin .shr _ _ => 3
  | .bin .add _ _ | .bin .sub _ _ => 4
  | .bin .mul _ _ | .bin .div _ _ | .bin .rem _ _ => 5
  | .cast _ _ => 6
  | .ref _ | .deref _ | .not _ => 7
  | _ => 8

def opText : BinOp → Nat
  | .add => id! "+" | .sub => id! "-" | .mul => id! "*" | .div => id! "/" | .rem => id! "%"
  | .and => id! "&" | .or => id! "|" | .shl => id! "<<" | .shr => id! ">>" | .eq => id! "=="

def tyText : IntTy → Nat
  | .i64 => id! "i64" | .i32 => id! "i32" | .i16 => id! "i16" | .i8 => id! "i8" | .u8 => id! "u8" | .usize => id! "usize"

def opLevel (o : BinOp) : Nat := level (.bin o .unit .unit)

/-- Brackets, if the expression is on a line before `p`. -/
def par (p : Nat) (e : Expr) (ts : List Tok) : List Tok :=
  if level e < p then .sym (id! "(") :: ts ++ [.sym (id! ")")] else ts

/-- A comma, unless it is the end of a list. -/
def comma : Expr → List Tok
  | .anil => []
  | _ => [.sym (id! ",")]

/-- Names with `::` before them. -/
def names (xs : List Nat) : List Tok := xs.flatMap fun x => [.sym (id! "::"), .id x]

/-- The tokens of an expression, or of a list of expressions. -/
def raw : Expr → List Tok
  | .lit none n => [.num n 0]
  | .lit (some t) n => [.num n (tyText t)]
  | .var x => [.id x]
  | .ref e => .sym (id! "&") :: par 7 e (raw e)
  | .deref e => .sym (id! "*") :: par 7 e (raw e)
  | .not e => .sym (id! "!") :: par 7 e (raw e)
  | .bin o a b => par (opLevel o) a (raw a) ++ .sym (opText o) :: par (opLevel o + 1) b (raw b)
  | .cast e t => par 6 e (raw e) ++ [.id (id! "as"), .id (tyText t)]
  | .field e x => par 8 e (raw e) ++ [.sym (id! "."), if x = id! "0" then .num 0 0 else .id x]
  | .index e i => par 8 e (raw e) ++ .sym (id! "[") :: raw i ++ [.sym (id! "]")]
  | .bool b => [.id (if b then id! "true" else id! "false")]
  | .unit => [.sym (id! "("), .sym (id! ")")]
  | .path [] _ => []
  | .path (x :: xs) as => .id x :: (names xs ++ .sym (id! "(") :: raw as ++ [.sym (id! ")")])
  | .method e m as => par 8 e (raw e) ++ .sym (id! ".") :: .id m :: .sym (id! "(") :: raw as ++ [.sym (id! ")")]
  | .array as => .sym (id! "[") :: raw as ++ [.sym (id! "]")]
  | .rep e n => .sym (id! "[") :: raw e ++ [.sym (id! ";"), .num n 0, .sym (id! "]")]
  | .try e => .id (id! "try") :: .sym (id! "!") :: .sym (id! "(") :: raw e ++ [.sym (id! ")")]
  | .anil => []
  | .acons e es => raw e ++ (comma es ++ raw es)
  | .struct _ _ _ | .write _ _ _ => []

/-- Words that are not names of variables. -/
def reserved : List Nat := [id! "true", id! "false", id! "try", id! "write", id! "Self", id! "mut", id! "as"]

/-- All expressions but those with `T { … }` and `write!`; with the flag, all lists of such expressions. -/
def Good : Bool → Expr → Prop
  | false, .lit _ _ | false, .bool _ | false, .unit => True
  | false, .var x => x ∉ reserved
  | false, .ref e | false, .deref e | false, .not e | false, .cast e _ | false, .field e _ | false, .rep e _ | false, .try e => Good false e
  | false, .bin _ a b | false, .index a b => Good false a ∧ Good false b
  | false, .path (x :: _) as => x ∉ reserved ∧ Good true as
  | false, .method e _ as => Good false e ∧ Good true as
  | false, .array as => Good true as
  | true, .anil => True
  | true, .acons e es => Good false e ∧ Good true es
  | _, _ => False

/-- All expressions but those with `T { … }` and `write!`. -/
def Simple (e : Expr) : Prop := Good false e

variable {self : Nat}

/-! ### Single steps of the reader -/

theorem expr_of {n q : Nat} {ts ts1 ts2 : List Tok} {a b : Expr} (h1 : unary self n ts = some (a, ts1)) (h2 : casts self n a ts1 = some (b, ts2)) :
    expr self (n + 1) q ts = more self n q b ts2 := by
  rw [expr, h1]
  simp only [h2]

theorem casts_stop {ts : List Tok} (h : kw (id! "as") ts = none) (n : Nat) (a : Expr) : casts self (n + 1) a ts = some (a, ts) := by
  rw [casts, h]

theorem casts_step (n : Nat) (a : Expr) (t : IntTy) (ts : List Tok) :
    casts self (n + 1) a (.id (id! "as") :: .id (tyText t) :: ts) = casts self n (.cast a t) ts := by
  rw [casts]
  cases t <;> rfl

theorem more_none {ts : List Tok} (h : binOp ts = none) (n q : Nat) (a : Expr) : more self (n + 1) q a ts = some (a, ts) := by
  rw [more, h]

theorem more_low {ts ts' : List Tok} {p q : Nat} {o : BinOp} (h : binOp ts = some (p, o, ts')) (hp : p < q) (n : Nat) (a : Expr) :
    more self (n + 1) q a ts = some (a, ts) := by
  have e : Nat.ble q p = false := Bool.eq_false_iff.mpr fun h => by have := Nat.le_of_ble_eq_true h; omega
  rw [more, h]
  simp only [e, cond_false]

theorem more_step {ts ts' ts2 : List Tok} {p q n : Nat} {o : BinOp} {b : Expr} (h : binOp ts = some (p, o, ts')) (hp : q ≤ p)
    (hb : expr self n (p + 1) ts' = some (b, ts2)) (a : Expr) : more self (n + 1) q a ts = more self n q (.bin o a b) ts2 := by
  have e : Nat.ble q p = true := Nat.ble_eq.mpr hp
  rw [more, h]
  simp only [e, cond_true, hb]

theorem unary_atom {n : Nat} {ts ts1 : List Tok} {e : Expr} (h : atom self n ts = some (e, ts1)) : unary self (n + 1) ts = post self n e ts1 := by
  have key : sym (id! "&") ts = none ∧ sym (id! "*") ts = none ∧ sym (id! "!") ts = none := by
    cases n with
    | zero => rw [atom] at h; cases h
    | succ n =>
      cases ts with
      | nil => exact ⟨rfl, rfl, rfl⟩
      | cons t ts =>
        cases t with
        | sym s =>
          have no : ∀ k, (k = id! "&" ∨ k = id! "*" ∨ k = id! "!") → Nat.beq s k = false := by
            intro k hk
            rw [Bool.eq_false_iff]
            intro hs
            obtain rfl := Nat.beq_eq ▸ hs
            rw [atom] at h
            rcases hk with rfl | rfl | rfl <;> cases h
          simp only [Grammar.sym, no _ (.inl rfl), no _ (.inr (.inl rfl)), no _ (.inr (.inr rfl)), cond_false, and_self]
        | _ => exact ⟨rfl, rfl, rfl⟩
  rw [unary, key.1]
  simp only [key.2.1, key.2.2, h]

theorem unary_ref {n : Nat} {ts ts1 : List Tok} {e : Expr} (hm : kw (id! "mut") ts = none) (h : unary self n ts = some (e, ts1)) :
    unary self (n + 1) (.sym (id! "&") :: ts) = some (.ref e, ts1) := by
  rw [unary]
  show (unary self n (optKw (id! "mut") ts)).map _ = _
  rw [optKw, hm, Option.getD_none, h]; rfl

theorem unary_deref {n : Nat} {ts ts1 : List Tok} {e : Expr} (h : unary self n ts = some (e, ts1)) :
    unary self (n + 1) (.sym (id! "*") :: ts) = some (.deref e, ts1) := by
  rw [unary]
  show (unary self n ts).map _ = _
  rw [h]; rfl

theorem unary_not {n : Nat} {ts ts1 : List Tok} {e : Expr} (h : unary self n ts = some (e, ts1)) :
    unary self (n + 1) (.sym (id! "!") :: ts) = some (.not e, ts1) := by
  rw [unary]
  show (unary self n ts).map _ = _
  rw [h]; rfl

theorem post_stop {ts : List Tok} (h1 : sym (id! ".") ts = none) (h2 : sym (id! "[") ts = none) (n : Nat) (e : Expr) :
    post self (n + 1) e ts = some (e, ts) := by
  rw [post, h1]
  simp only [h2]

theorem post_field {ts : List Tok} (h : sym (id! "(") ts = none) (n : Nat) (e : Expr) (x : Nat) :
    post self (n + 1) e (.sym (id! ".") :: (if x = id! "0" then .num 0 0 else .id x) :: ts) = post self n (.field e x) ts := by
  split
  · next hx => subst hx; rw [post]; rfl
  · rw [post]
    show (match sym (id! "(") ts with
      | some ts => match list self n (id! ")") ts with
        | some (a, ts) => post self n (.method e x a) ts
        | none => none
      | none => post self n (.field e x) ts) = _
    rw [h]

theorem post_index {n : Nat} {ts ts' : List Tok} {i : Expr} (h : expr self n 0 ts = some (i, .sym (id! "]") :: ts')) (e : Expr) :
    post self (n + 1) e (.sym (id! "[") :: ts) = post self n (.index e i) ts' := by
  rw [post]
  show (match expr self n 0 ts with
        | some (i, ts) =>
          match sym (id! "]") ts with
          | some ts => post self n (.index e i) ts
          | none => none
        | none => none) = _
  rw [h]; rfl

theorem atom_lit (n k : Nat) (ts : List Tok) : atom self (n + 1) (.num k 0 :: ts) = some (.lit none k, ts) := by rw [atom]; rfl

theorem atom_typed (n k : Nat) (t : IntTy) (ts : List Tok) : atom self (n + 1) (.num k (tyText t) :: ts) = some (.lit (some t) k, ts) := by
  rw [atom]; cases t <;> rfl

/-- What may follow a name. -/
def Plain (ts : List Tok) : Prop := sym (id! "::") ts = none ∧ sym (id! "(") ts = none ∧ sym (id! "{") ts = none

theorem atom_var {x : Nat} (hx : x ∉ reserved) {ts : List Tok} (h : Plain ts) (n : Nat) : atom self (n + 1) (.id x :: ts) = some (.var x, ts) := by
  have no : ∀ k ∈ reserved, Nat.beq x k = false := fun k hk => Bool.eq_false_iff.mpr fun h => hx ((Nat.beq_eq ▸ h : x = k) ▸ hk)
  have e1 := no (id! "true") (by decide)
  have e2 := no (id! "false") (by decide)
  have e3 := no (id! "try") (by decide)
  have e4 := no (id! "write") (by decide)
  have e5 : resolve self x = x := by rw [resolve, no (id! "Self") (by decide), cond_false]
  rw [atom]
  simp only [e1, e2, e3, e4, e5, cond_false, h.1, h.2.1, h.2.2]

/-- No expression begins with a closing bracket (helper lemma). -/
theorem expr_close {k : Nat} (hk : k = id! ")" ∨ k = id! "]") (n q : Nat) (ts : List Tok) : expr self n q (.sym k :: ts) = none := by
  cases n with
  | zero => rw [expr]
  | succ n =>
    have : unary self n (.sym k :: ts) = none := by
      cases n with
      | zero => rw [unary]
      | succ n =>
        have : atom self n (.sym k :: ts) = none := by
          cases n <;> rw [atom]; rcases hk with rfl | rfl <;> rfl
        have e : unary self (n + 1) (.sym k :: ts) = match atom self n (.sym k :: ts) with | some (e, ts) => post self n e ts | none => none := by
          rw [unary]; rcases hk with rfl | rfl <;> rfl
        rw [e, this]
    rw [expr, this]

theorem no_close {k : Nat} (hk : k = id! ")" ∨ k = id! "]") {n q : Nat} {ts : List Tok} {r : Expr × List Tok} (h : expr self n q ts = some r) :
    sym k ts = none := by
  cases ts with
  | nil => rfl
  | cons t ts =>
    cases t with
    | sym s =>
      by_cases hs : s = k
      · subst hs; rw [expr_close hk] at h; cases h
      · have : Nat.beq s k = false := Bool.eq_false_iff.mpr fun h => hs (Nat.beq_eq ▸ h)
        rw [Grammar.sym, this]; rfl
    | _ => rfl

theorem atom_par {n : Nat} {ts ts' : List Tok} {e : Expr} (h : expr self n 0 ts = some (e, .sym (id! ")") :: ts')) :
    atom self (n + 1) (.sym (id! "(") :: ts) = some (e, ts') := by
  have hc := no_close (.inl rfl) h
  rw [atom]
  show (match sym (id! ")") ts with
      | some ts => some (Expr.unit, ts)
      | none =>
        match expr self n 0 ts with
        | some (e, ts) => (sym (id! ")") ts).map fun ts => (e, ts)
        | none => none) = _
  rw [hc]
  simp only [h]
  rfl

theorem list_close (k n : Nat) (ts : List Tok) : Grammar.list self (n + 1) k (.sym k :: ts) = some (.anil, ts) := by
  have : sym k (.sym k :: ts) = some ts := by rw [Grammar.sym, Nat.beq_refl]; rfl
  rw [Grammar.list, this]

theorem list_one {k : Nat} (hk : k = id! ")" ∨ k = id! "]") {n : Nat} {ts ts' : List Tok} {a : Expr} (h : expr self n 0 ts = some (a, .sym k :: ts')) :
    Grammar.list self (n + 1) k ts = some (.acons a .anil, ts') := by
  rw [Grammar.list, no_close hk h]
  simp only [h]
  rcases hk with rfl | rfl <;> rfl

theorem list_cons {k : Nat} (hk : k = id! ")" ∨ k = id! "]") {n : Nat} {ts ts1 ts2 : List Tok} {a b : Expr}
    (h : expr self n 0 ts = some (a, .sym (id! ",") :: ts1)) (h2 : Grammar.list self n k ts1 = some (b, ts2)) :
    Grammar.list self (n + 1) k ts = some (.acons a b, ts2) := by
  rw [Grammar.list, no_close hk h]
  simp only [h]
  show (Grammar.list self n k ts1).map _ = _
  rw [h2]; rfl

theorem path_step (n : Nat) (p : List Nat) (x : Nat) (ts : List Tok) :
    path self (n + 1) p (.sym (id! "::") :: .id x :: ts) = path self n (p ++ [x]) ts := by
  rw [path]; rfl

theorem path_args {n : Nat} {ts ts' : List Tok} {a : Expr} (h : Grammar.list self n (id! ")") ts = some (a, ts')) (p : List Nat) :
    path self (n + 1) p (.sym (id! "(") :: ts) = some (.path p a, ts') := by
  rw [path]
  show (match Grammar.list self n (id! ")") ts with | some (a, ts) => some (Expr.path p a, ts) | none => none) = _
  rw [h]

theorem atom_path {x : Nat} (hx : x ∉ reserved) (n : Nat) {t : Nat} (ht : t = id! "::" ∨ t = id! "(") (ts : List Tok) :
    atom self (n + 1) (.id x :: .sym t :: ts) = path self n [x] (.sym t :: ts) := by
  have no : ∀ k ∈ reserved, Nat.beq x k = false := fun k hk => Bool.eq_false_iff.mpr fun h => hx ((Nat.beq_eq ▸ h : x = k) ▸ hk)
  have e1 := no (id! "true") (by decide)
  have e2 := no (id! "false") (by decide)
  have e3 := no (id! "try") (by decide)
  have e4 := no (id! "write") (by decide)
  have e5 : resolve self x = x := by rw [resolve, no (id! "Self") (by decide), cond_false]
  rw [atom]
  simp only [e1, e2, e3, e4, e5, cond_false]
  rcases ht with rfl | rfl <;> rfl

theorem atom_try {n : Nat} {ts ts' : List Tok} {e : Expr} (h : expr self n 0 ts = some (e, .sym (id! ")") :: ts')) :
    atom self (n + 1) (.id (id! "try") :: .sym (id! "!") :: .sym (id! "(") :: ts) = some (.try e, ts') := by
  rw [atom]
  show (match expr self n 0 ts with
      | some (e, ts) => (sym (id! ")") ts).map fun ts => (Expr.try e, ts)
      | none => none) = _
  rw [h]; rfl

theorem atom_rep {n k : Nat} {ts ts' : List Tok} {e : Expr} (h : expr self n 0 ts = some (e, .sym (id! ";") :: .num k 0 :: .sym (id! "]") :: ts')) :
    atom self (n + 1) (.sym (id! "[") :: ts) = some (.rep e k, ts') := by
  rw [atom.eq_def]
  simp only [no_close (.inr rfl) h, h]
  rfl

theorem atom_one {n : Nat} {ts ts' : List Tok} {e : Expr} (h : expr self n 0 ts = some (e, .sym (id! "]") :: ts')) :
    atom self (n + 1) (.sym (id! "[") :: ts) = some (.array (.acons e .anil), ts') := by
  rw [atom.eq_def]
  simp only [no_close (.inr rfl) h, h]
  rfl

theorem atom_more {n : Nat} {ts ts1 ts2 : List Tok} {e es : Expr} (h : expr self n 0 ts = some (e, .sym (id! ",") :: ts1))
    (h2 : Grammar.list self n (id! "]") ts1 = some (es, ts2)) : atom self (n + 1) (.sym (id! "[") :: ts) = some (.array (.acons e es), ts2) := by
  rw [atom.eq_def]
  simp only [no_close (.inr rfl) h, h]
  show (Grammar.list self n (id! "]") ts1).map _ = _
  rw [h2]; rfl

theorem post_method {n : Nat} {ts ts' : List Tok} {a : Expr} (h : Grammar.list self n (id! ")") ts = some (a, ts')) (e : Expr) (m : Nat) :
    post self (n + 1) e (.sym (id! ".") :: .id m :: .sym (id! "(") :: ts) = post self n (.method e m a) ts' := by
  rw [post]
  show (match Grammar.list self n (id! ")") ts with
        | some (a, ts) => post self n (.method e m a) ts
        | none => none) = _
  rw [h]

/-! ### Whole expressions -/

/-- What may follow an operand: no `.` and no `[`, and what may follow a name. -/
def NoPost (ts : List Tok) : Prop := Plain ts ∧ sym (id! ".") ts = none ∧ sym (id! "[") ts = none

/-- What may follow an expression on line `p`: besides, no `as`, and no operator that binds stronger. -/
def Follow (p : Nat) (ts : List Tok) : Prop :=
  NoPost ts ∧ kw (id! "as") ts = none ∧ ∀ r, binOp ts = some r → r.1 ≤ p

def R8 (self : Nat) (ts : List Tok) (e : Expr) : Prop := ∀ rest, Plain rest → ∃ B c e0 ts0, ∀ n, B ≤ n →
  atom self n (ts ++ rest) = some (e0, ts0) ∧ post self (n + c) e0 ts0 = post self n e rest

def R7 (self : Nat) (ts : List Tok) (e : Expr) : Prop := ∀ rest, NoPost rest → ∃ B, ∀ n, B ≤ n → unary self n (ts ++ rest) = some (e, rest)

def R6 (self : Nat) (ts : List Tok) (e : Expr) : Prop := ∀ rest, NoPost rest → ∃ B c e0 ts0, ∀ n, B ≤ n →
  unary self n (ts ++ rest) = some (e0, ts0) ∧ casts self (n + c) e0 ts0 = casts self n e rest

def RT (self p : Nat) (ts : List Tok) (e : Expr) : Prop := ∀ q, q ≤ p → ∀ rest, Follow p rest → ∃ B c, ∀ n, B ≤ n →
  expr self (n + c) q (ts ++ rest) = more self n q e rest

theorem R7_of_R8 {ts : List Tok} {e : Expr} (h : R8 self ts e) : R7 self ts e := by
  intro rest hr
  obtain ⟨B, c, e0, ts0, h⟩ := h rest hr.1
  refine ⟨B + c + 2, fun n hn => ?_⟩
  obtain ⟨m, rfl⟩ : ∃ m, n = m + 1 + c + 1 := ⟨n - c - 2, by omega⟩
  rw [unary_atom (h (m + 1 + c) (by omega)).1, (h (m + 1) (by omega)).2, post_stop hr.2.1 hr.2.2]

theorem R6_of_R7 {ts : List Tok} {e : Expr} (h : R7 self ts e) : R6 self ts e := by
  intro rest hr
  obtain ⟨B, h⟩ := h rest hr
  exact ⟨B, 0, e, rest, fun n hn => ⟨h n hn, rfl⟩⟩

theorem RT_of_R6 {ts : List Tok} {e : Expr} (h : R6 self ts e) (p : Nat) : RT self p ts e := by
  intro q _ rest hr
  obtain ⟨B, c, e0, ts0, h⟩ := h rest hr.1
  refine ⟨B + c + 1, 1, fun n hn => ?_⟩
  obtain ⟨m, rfl⟩ : ∃ m, n = m + 1 + c := ⟨n - c - 1, by omega⟩
  exact expr_of (h _ (by omega)).1 ((h (m + 1) (by omega)).2.trans (casts_stop hr.2.1 m e))

theorem E_of_RT {ts : List Tok} {e : Expr} (h : RT self 0 ts e) {rest : List Tok} (hr : Follow 0 rest) (hb : binOp rest = none) :
    ∃ B, ∀ n, B ≤ n → expr self n 0 (ts ++ rest) = some (e, rest) := by
  obtain ⟨B, c, h⟩ := h 0 (Nat.le_refl _) rest hr
  refine ⟨B + c + 1, fun n hn => ?_⟩
  obtain ⟨m, rfl⟩ : ∃ m, n = m + 1 + c := ⟨n - c - 1, by omega⟩
  rw [h _ (by omega), more_none hb]

theorem follow_close (ts : List Tok) : Follow 0 (.sym (id! ")") :: ts) ∧ binOp (.sym (id! ")") :: ts) = none ∧
    Follow 0 (.sym (id! "]") :: ts) ∧ binOp (.sym (id! "]") :: ts) = none :=
  ⟨⟨⟨⟨rfl, rfl, rfl⟩, rfl, rfl⟩, rfl, fun r h => by cases h⟩, rfl, ⟨⟨⟨rfl, rfl, rfl⟩, rfl, rfl⟩, rfl, fun r h => by cases h⟩, rfl⟩

theorem R8_par {ts : List Tok} {e : Expr} (h : RT self 0 ts e) : R8 self (.sym (id! "(") :: ts ++ [.sym (id! ")")]) e := by
  intro rest _
  obtain ⟨B, h⟩ := E_of_RT h (follow_close rest).1 (follow_close rest).2.1
  refine ⟨B + 1, 0, e, rest, fun n hn => ⟨?_, rfl⟩⟩
  obtain ⟨m, rfl⟩ : ∃ m, n = m + 1 := ⟨n - 1, by omega⟩
  rw [List.append_assoc, List.cons_append]
  exact atom_par (h m (by omega))

/-- What holds of an expression without outer brackets, according to its line in the table. -/
def Reads (self : Nat) (e : Expr) : Prop :=
  (8 ≤ level e → R8 self (raw e) e) ∧ (7 ≤ level e → R7 self (raw e) e) ∧ (6 ≤ level e → R6 self (raw e) e) ∧
    ∀ p, p ≤ level e → p ≤ 6 → RT self p (raw e) e

theorem reads8 {e : Expr} (h : Reads self e) : R8 self (par 8 e (raw e)) e := by
  unfold par
  split
  · exact R8_par (h.2.2.2 0 (Nat.zero_le _) (Nat.zero_le _))
  · exact h.1 (by omega)

theorem reads7 {e : Expr} (h : Reads self e) : R7 self (par 7 e (raw e)) e := by
  unfold par
  split
  · exact R7_of_R8 (R8_par (h.2.2.2 0 (Nat.zero_le _) (Nat.zero_le _)))
  · exact h.2.1 (by omega)

theorem reads6 {e : Expr} (h : Reads self e) : R6 self (par 6 e (raw e)) e := by
  unfold par
  split
  · exact R6_of_R7 (R7_of_R8 (R8_par (h.2.2.2 0 (Nat.zero_le _) (Nat.zero_le _))))
  · exact h.2.2.1 (by omega)

theorem readsT {e : Expr} (h : Reads self e) {p : Nat} (hp : p ≤ 6) : RT self p (par p e (raw e)) e := by
  unfold par
  split
  · exact RT_of_R6 (R6_of_R7 (R7_of_R8 (R8_par (h.2.2.2 0 (Nat.zero_le _) (Nat.zero_le _))))) p
  · exact h.2.2.2 p (by omega) hp

theorem of_R8 {e : Expr} (h : R8 self (raw e) e) : Reads self e :=
  ⟨fun _ => h, fun _ => R7_of_R8 h, fun _ => R6_of_R7 (R7_of_R8 h), fun p _ _ => RT_of_R6 (R6_of_R7 (R7_of_R8 h)) p⟩

theorem of_R7 {e : Expr} (hl : level e = 7) (h : R7 self (raw e) e) : Reads self e :=
  ⟨fun h8 => by omega, fun _ => h, fun _ => R6_of_R7 h, fun p _ _ => RT_of_R6 (R6_of_R7 h) p⟩

theorem of_R6 {e : Expr} (hl : level e = 6) (h : R6 self (raw e) e) : Reads self e :=
  ⟨fun h8 => by omega, fun h7 => by omega, fun _ => h, fun p _ _ => RT_of_R6 h p⟩

theorem not_mut (p : Nat) : ∀ {e : Expr}, Simple e → ∀ rest, kw (id! "mut") (par p e (raw e) ++ rest) = none := by
  have brackets : ∀ {q : Nat} {e : Expr}, (∀ rest, kw (id! "mut") (raw e ++ rest) = none) → ∀ rest, kw (id! "mut") (par q e (raw e) ++ rest) = none := by
    intro q e h rest
    unfold par
    split
    · rfl
    · exact h rest
  intro e h
  apply brackets
  induction e with
  | lit t n => intro rest; cases t <;> rfl
  | var x =>
    intro rest
    have : Nat.beq x (id! "mut") = false := Bool.eq_false_iff.mpr fun e => h ((Nat.beq_eq ▸ e : x = id! "mut") ▸ (by decide))
    show (bif Nat.beq x (id! "mut") then some _ else none) = none
    rw [this]; rfl
  | ref e _ | deref e _ | not e _ => intro rest; rfl
  | bin o a b iha _ => intro rest; rw [raw, List.append_assoc]; exact brackets (iha h.1) _
  | cast e t ih => intro rest; rw [raw, List.append_assoc]; exact brackets (ih h) _
  | field e x ih => intro rest; rw [raw, List.append_assoc]; exact brackets (ih h) _
  | index e i ih _ => intro rest; rw [raw, List.append_assoc, List.append_assoc]; exact brackets (ih h.1) _
  | bool b => intro rest; cases b <;> rfl
  | unit => intro rest; rfl
  | array as _ | rep e n _ | «try» e _ => intro rest; rfl
  | method e m as ih _ => intro rest; rw [raw, List.append_assoc, List.append_assoc]; exact brackets (ih h.1) _
  | path p as _ =>
    intro rest
    cases p with
    | nil => exact h.elim
    | cons x xs =>
      have : Nat.beq x (id! "mut") = false := Bool.eq_false_iff.mpr fun e => h.1 ((Nat.beq_eq ▸ e : x = id! "mut") ▸ (by decide))
      show (bif Nat.beq x (id! "mut") then some _ else none) = none
      rw [this]; rfl
  | _ => exact h.elim

theorem op_eq (o : BinOp) (ts : List Tok) : binOp (.sym (opText o) :: ts) = some (opLevel o, o, ts) ∧ NoPost (.sym (opText o) :: ts) ∧
    opLevel o ≤ 5 := by
  cases o <;> exact ⟨rfl, ⟨⟨rfl, rfl, rfl⟩, rfl, rfl⟩, by decide⟩

/-- Lists of expressions: as arguments and as elements of an array. -/
def ReadsArgs (self : Nat) (e : Expr) : Prop :=
  (∀ k, (k = id! ")" ∨ k = id! "]") → ∀ rest, ∃ B, ∀ n, B ≤ n → Grammar.list self n k (raw e ++ .sym k :: rest) = some (e, rest)) ∧
  ∀ rest, ∃ B, ∀ n, B ≤ n → atom self n (.sym (id! "[") :: (raw e ++ .sym (id! "]") :: rest)) = some (.array e, rest)

theorem follow_sym {k : Nat} (hk : k ∈ [id! ")", id! "]", id! ",", id! ";"]) (ts : List Tok) : Follow 0 (.sym k :: ts) ∧ binOp (.sym k :: ts) = none := by
  simp only [List.mem_cons, List.not_mem_nil, or_false] at hk
  rcases hk with rfl | rfl | rfl | rfl <;> exact ⟨⟨⟨⟨rfl, rfl, rfl⟩, rfl, rfl⟩, rfl, fun r h => by cases h⟩, rfl⟩

theorem reads_before {e : Expr} (h : Reads self e) {k : Nat} (hk : k ∈ [id! ")", id! "]", id! ",", id! ";"]) (ts : List Tok) :
    ∃ B, ∀ n, B ≤ n → expr self n 0 (raw e ++ .sym k :: ts) = some (e, .sym k :: ts) :=
  E_of_RT (h.2.2.2 0 (Nat.zero_le _) (Nat.zero_le _)) (follow_sym hk ts).1 (follow_sym hk ts).2

theorem args_nil : ReadsArgs self .anil := by
  refine ⟨fun k _ rest => ⟨1, fun n hn => ?_⟩, fun rest => ⟨1, fun n hn => ?_⟩⟩
  · obtain ⟨m, rfl⟩ : ∃ k, n = k + 1 := ⟨n - 1, by omega⟩
    exact list_close k m rest
  · obtain ⟨m, rfl⟩ : ∃ k, n = k + 1 := ⟨n - 1, by omega⟩
    rw [atom.eq_def]; rfl

theorem args_one {e : Expr} (h : Reads self e) : ReadsArgs self (.acons e .anil) := by
  have e1 : raw (.acons e .anil) = raw e := List.append_nil _
  refine ⟨fun k hk rest => ?_, fun rest => ?_⟩
  · obtain ⟨B, hB⟩ := reads_before h (k := k) (by rcases hk with rfl | rfl <;> decide) rest
    refine ⟨B + 1, fun n hn => ?_⟩
    obtain ⟨m, rfl⟩ : ∃ k, n = k + 1 := ⟨n - 1, by omega⟩
    rw [e1]
    exact list_one hk (hB m (by omega))
  · obtain ⟨B, hB⟩ := reads_before h (k := id! "]") (by decide) rest
    refine ⟨B + 1, fun n hn => ?_⟩
    obtain ⟨m, rfl⟩ : ∃ k, n = k + 1 := ⟨n - 1, by omega⟩
    rw [e1]
    exact atom_one (hB m (by omega))

theorem args_more {e a as : Expr} (h : Reads self e) (hs : ReadsArgs self (.acons a as)) : ReadsArgs self (.acons e (.acons a as)) := by
  have e1 : ∀ r, raw (.acons e (.acons a as)) ++ r = raw e ++ .sym (id! ",") :: (raw (.acons a as) ++ r) := fun r => by
    rw [raw, List.append_assoc, List.append_assoc]; rfl
  refine ⟨fun k hk rest => ?_, fun rest => ?_⟩
  · obtain ⟨B, hB⟩ := reads_before h (k := id! ",") (by decide) (raw (.acons a as) ++ .sym k :: rest)
    obtain ⟨B', hB'⟩ := hs.1 k hk rest
    refine ⟨B + B' + 1, fun n hn => ?_⟩
    obtain ⟨m, rfl⟩ : ∃ k, n = k + 1 := ⟨n - 1, by omega⟩
    rw [e1]
    exact list_cons hk (hB m (by omega)) (hB' m (by omega))
  · obtain ⟨B, hB⟩ := reads_before h (k := id! ",") (by decide) (raw (.acons a as) ++ .sym (id! "]") :: rest)
    obtain ⟨B', hB'⟩ := hs.1 (id! "]") (.inr rfl) rest
    refine ⟨B + B' + 1, fun n hn => ?_⟩
    obtain ⟨m, rfl⟩ : ∃ k, n = k + 1 := ⟨n - 1, by omega⟩
    rw [e1]
    exact atom_more (hB m (by omega)) (hB' m (by omega))

theorem reads_path {as : Expr} (h : ReadsArgs self as) (rest : List Tok) : ∀ (xs p : List Nat), ∃ B, ∀ n, B ≤ n →
    path self n p (names xs ++ (.sym (id! "(") :: (raw as ++ .sym (id! ")") :: rest))) = some (.path (p ++ xs) as, rest)
  | [], p => by
    obtain ⟨B, hB⟩ := h.1 (id! ")") (.inl rfl) rest
    refine ⟨B + 1, fun n hn => ?_⟩
    obtain ⟨m, rfl⟩ : ∃ k, n = k + 1 := ⟨n - 1, by omega⟩
    rw [List.append_nil]
    exact path_args (hB m (by omega)) p
  | x :: xs, p => by
    obtain ⟨B, hB⟩ := reads_path h rest xs (p ++ [x])
    refine ⟨B + 1, fun n hn => ?_⟩
    obtain ⟨m, rfl⟩ : ∃ k, n = k + 1 := ⟨n - 1, by omega⟩
    have := (path_step (self := self) m p x _).trans (hB m (by omega))
    rw [List.append_assoc] at this
    exact this

theorem reads_both (e : Expr) : (Good false e → Reads self e) ∧ (Good true e → ReadsArgs self e) := by
  induction e with
  | lit t n =>
    refine ⟨fun h => ?_, fun h => h.elim⟩
    refine of_R8 fun rest _ => ⟨1, 0, .lit t n, rest, fun m hm => ⟨?_, rfl⟩⟩
    obtain ⟨m, rfl⟩ : ∃ k, m = k + 1 := ⟨m - 1, by omega⟩
    cases t with
    | none => exact atom_lit m n rest
    | some t => exact atom_typed m n t rest
  | var x =>
    refine ⟨fun h => ?_, fun h => h.elim⟩
    refine of_R8 fun rest hr => ⟨1, 0, .var x, rest, fun m hm => ⟨?_, rfl⟩⟩
    obtain ⟨m, rfl⟩ : ∃ k, m = k + 1 := ⟨m - 1, by omega⟩
    exact atom_var h hr m
  | ref e ih =>
    refine ⟨fun h => ?_, fun h => h.elim⟩
    refine of_R7 rfl fun rest hr => ?_
    obtain ⟨B, hB⟩ := reads7 (ih.1 h) rest hr
    refine ⟨B + 1, fun n hn => ?_⟩
    obtain ⟨m, rfl⟩ : ∃ k, n = k + 1 := ⟨n - 1, by omega⟩
    exact unary_ref (not_mut 7 (e := e) h rest) (hB m (by omega))
  | deref e ih =>
    refine ⟨fun h => ?_, fun h => h.elim⟩
    refine of_R7 rfl fun rest hr => ?_
    obtain ⟨B, hB⟩ := reads7 (ih.1 h) rest hr
    refine ⟨B + 1, fun n hn => ?_⟩
    obtain ⟨m, rfl⟩ : ∃ k, n = k + 1 := ⟨n - 1, by omega⟩
    exact unary_deref (hB m (by omega))
  | not e ih =>
    refine ⟨fun h => ?_, fun h => h.elim⟩
    refine of_R7 rfl fun rest hr => ?_
    obtain ⟨B, hB⟩ := reads7 (ih.1 h) rest hr
    refine ⟨B + 1, fun n hn => ?_⟩
    obtain ⟨m, rfl⟩ : ∃ k, n = k + 1 := ⟨n - 1, by omega⟩
    exact unary_not (hB m (by omega))
  | cast e t ih =>
    refine ⟨fun h => ?_, fun h => h.elim⟩
    refine of_R6 rfl fun rest hr => ?_
    obtain ⟨B, c, e0, ts0, hB⟩ := reads6 (ih.1 h) (.id (id! "as") :: .id (tyText t) :: rest) ⟨⟨rfl, rfl, rfl⟩, rfl, rfl⟩
    refine ⟨B, c + 1, e0, ts0, fun n hn => ⟨?_, ?_⟩⟩
    · rw [raw, List.append_assoc]
      exact (hB n hn).1
    · have := (hB (n + 1) (by omega)).2
      rw [casts_step] at this
      rw [← this]
      congr 1
      omega
  | field e x ih =>
    refine ⟨fun h => ?_, fun h => h.elim⟩
    refine of_R8 fun rest hr => ?_
    obtain ⟨B, c, e0, ts0, hB⟩ := reads8 (ih.1 h) (.sym (id! ".") :: (if x = id! "0" then .num 0 0 else .id x) :: rest) ⟨rfl, rfl, rfl⟩
    refine ⟨B, c + 1, e0, ts0, fun n hn => ⟨?_, ?_⟩⟩
    · rw [raw, List.append_assoc]
      exact (hB n hn).1
    · have := (hB (n + 1) (by omega)).2
      rw [post_field hr.2.1] at this
      rw [← this]
      congr 1
      omega
  | index e i ihe ihi =>
    refine ⟨fun h => ?_, fun h => h.elim⟩
    refine of_R8 fun rest hr => ?_
    obtain ⟨B1, h1⟩ := E_of_RT ((ihi.1 h.2).2.2.2 0 (Nat.zero_le _) (Nat.zero_le _)) (follow_close rest).2.2.1 (follow_close rest).2.2.2
    obtain ⟨B, c, e0, ts0, hB⟩ := reads8 (ihe.1 h.1) (.sym (id! "[") :: (raw i ++ .sym (id! "]") :: rest)) ⟨rfl, rfl, rfl⟩
    refine ⟨B + B1, c + 1, e0, ts0, fun n hn => ⟨?_, ?_⟩⟩
    · rw [raw, List.append_assoc, List.append_assoc]
      exact (hB n (by omega)).1
    · have := (hB (n + 1) (by omega)).2
      rw [post_index (h1 n (by omega))] at this
      rw [← this]
      congr 1
      omega
  | bin o a b iha ihb =>
    refine ⟨fun h => ?_, fun h => h.elim⟩
    obtain ⟨-, -, ho⟩ := op_eq o []
    have hl : level (.bin o a b) = opLevel o := by cases o <;> rfl
    refine ⟨fun h8 => by omega, fun h7 => by omega, fun h6 => by omega, fun p hp _ => ?_⟩
    rw [hl] at hp
    intro q hq rest hr
    obtain ⟨o1, o2, -⟩ := op_eq o (par (opLevel o + 1) b (raw b) ++ rest)
    obtain ⟨B, c, hB⟩ := readsT (iha.1 h.1) (p := opLevel o) (by omega) q (by omega) (.sym (opText o) :: (par (opLevel o + 1) b (raw b) ++ rest))
      ⟨o2, rfl, fun r hr => by rw [o1] at hr; cases hr; exact (Nat.le_refl _)⟩
    obtain ⟨B', c', hB'⟩ := readsT (ihb.1 h.2) (p := opLevel o + 1) (by omega) (opLevel o + 1) (Nat.le_refl _) rest
      ⟨hr.1, hr.2.1, fun r h => by have := hr.2.2 r h; omega⟩
    refine ⟨B + B' + c' + 1, c + 1, fun n hn => ?_⟩
    have e1 : expr self n (opLevel o + 1) (par (opLevel o + 1) b (raw b) ++ rest) = some (b, rest) := by
      obtain ⟨m, rfl⟩ : ∃ m, n = m + 1 + c' := ⟨n - c' - 1, by omega⟩
      rw [hB' (m + 1) (by omega)]
      cases hb : binOp rest with
      | none => exact more_none hb _ _ _
      | some r => exact more_low hb (by have := hr.2.2 r hb; omega) _ _
    have e2 := hB (n + 1) (by omega)
    rw [more_step o1 (by omega) e1] at e2
    rw [← e2, raw, List.append_assoc]
    congr 1
    omega
  | bool b =>
    refine ⟨fun _ => of_R8 fun rest _ => ⟨1, 0, .bool b, rest, fun m hm => ⟨?_, rfl⟩⟩, fun h => h.elim⟩
    obtain ⟨m, rfl⟩ : ∃ k, m = k + 1 := ⟨m - 1, by omega⟩
    rw [atom.eq_def]; cases b <;> rfl
  | unit =>
    refine ⟨fun _ => of_R8 fun rest _ => ⟨1, 0, .unit, rest, fun m hm => ⟨?_, rfl⟩⟩, fun h => h.elim⟩
    obtain ⟨m, rfl⟩ : ∃ k, m = k + 1 := ⟨m - 1, by omega⟩
    rw [atom.eq_def]; rfl
  | array as ih =>
    refine ⟨fun h => of_R8 fun rest _ => ?_, fun h => h.elim⟩
    obtain ⟨B, hB⟩ := (ih.2 h).2 rest
    refine ⟨B, 0, .array as, rest, fun m hm => ⟨?_, rfl⟩⟩
    rw [raw, List.append_assoc]
    exact hB m hm
  | rep e k ih =>
    refine ⟨fun h => of_R8 fun rest _ => ?_, fun h => h.elim⟩
    obtain ⟨B, hB⟩ := reads_before (ih.1 h) (k := id! ";") (by decide) (.num k 0 :: .sym (id! "]") :: rest)
    refine ⟨B + 1, 0, .rep e k, rest, fun n hn => ⟨?_, rfl⟩⟩
    obtain ⟨m, rfl⟩ : ∃ k, n = k + 1 := ⟨n - 1, by omega⟩
    rw [raw, List.append_assoc]
    exact atom_rep (hB m (by omega))
  | «try» e ih =>
    refine ⟨fun h => of_R8 fun rest _ => ?_, fun h => h.elim⟩
    obtain ⟨B, hB⟩ := reads_before (ih.1 h) (k := id! ")") (by decide) rest
    refine ⟨B + 1, 0, .try e, rest, fun n hn => ⟨?_, rfl⟩⟩
    obtain ⟨m, rfl⟩ : ∃ k, n = k + 1 := ⟨n - 1, by omega⟩
    rw [raw, List.append_assoc]
    exact atom_try (hB m (by omega))
  | path p as ih =>
    cases p with
    | nil => exact ⟨fun h => h.elim, fun h => h.elim⟩
    | cons x xs =>
      refine ⟨fun h => of_R8 fun rest _ => ?_, fun h => h.elim⟩
      obtain ⟨B, hB⟩ := reads_path (ih.2 h.2) rest xs [x]
      refine ⟨B + 1, 0, .path (x :: xs) as, rest, fun n hn => ⟨?_, rfl⟩⟩
      obtain ⟨m, rfl⟩ : ∃ k, n = k + 1 := ⟨n - 1, by omega⟩
      have e1 : raw (.path (x :: xs) as) ++ rest = .id x :: (names xs ++ (.sym (id! "(") :: (raw as ++ .sym (id! ")") :: rest))) := by
        rw [raw, List.cons_append, List.append_assoc, List.append_assoc]; rfl
      have h2 := hB m (by omega)
      rw [e1]
      cases xs with
      | nil => exact (atom_path h.1 m (.inr rfl) _).trans h2
      | cons y ys => exact (atom_path h.1 m (.inl rfl) _).trans h2
  | method e x as ih iha =>
    refine ⟨fun h => of_R8 fun rest hr => ?_, fun h => h.elim⟩
    obtain ⟨B1, h1⟩ := (iha.2 h.2).1 (id! ")") (.inl rfl) rest
    obtain ⟨B, c, e0, ts0, hB⟩ := reads8 (ih.1 h.1) (.sym (id! ".") :: .id x :: .sym (id! "(") :: (raw as ++ .sym (id! ")") :: rest)) ⟨rfl, rfl, rfl⟩
    refine ⟨B + B1, c + 1, e0, ts0, fun n hn => ⟨?_, ?_⟩⟩
    · rw [raw, List.append_assoc, List.append_assoc]
      exact (hB n (by omega)).1
    · have := (hB (n + 1) (by omega)).2
      rw [post_method (h1 n (by omega))] at this
      rw [← this]
      congr 1
      omega
  | anil => exact ⟨fun h => h.elim, fun _ => args_nil⟩
  | acons e es ih ihs =>
    refine ⟨fun h => h.elim, fun h => ?_⟩
    cases es with
    | anil => exact args_one (ih.1 h.1)
    | acons a as => exact args_more (ih.1 h.1) (ihs.2 h.2)
    | _ => exact h.2.elim
  | struct _ _ _ _ => exact ⟨fun h => h.elim, fun h => h.elim⟩
  | write _ _ _ _ _ => exact ⟨fun h => h.elim, fun h => h.elim⟩

theorem reads {e : Expr} (h : Simple e) : Reads self e := (reads_both e).1 h

end Writer
open Writer

/-- C95: from the tokens of an expression, followed by something that cannot continue it, the reader makes this expression, at every depth of
recursion that is large enough. -/
theorem C95_expression (self : Nat) {e : Expr} (h : Simple e) {rest : List Tok} (hr : Follow 0 rest) (hb : binOp rest = none) :
    ∃ N, ∀ n, N ≤ n → expr self n 0 (raw e ++ rest) = some (e, rest) :=
  E_of_RT ((reads h).2.2.2 0 (Nat.zero_le _) (Nat.zero_le _)) hr hb

/-- C95: expressions that are written with the same tokens are the same. -/
theorem C95_unambiguous {a b : Expr} (ha : Simple a) (hb : Simple b) (h : raw a = raw b) : a = b := by
  obtain ⟨N, hN⟩ := C95_expression 0 ha (follow_close []).1 (follow_close []).2.1
  obtain ⟨M, hM⟩ := C95_expression 0 hb (follow_close []).1 (follow_close []).2.1
  have e1 := hN (N + M) (by omega)
  rw [h, hM (N + M) (by omega)] at e1
  exact (Prod.mk.inj (Option.some.inj e1)).1.symm

/-! ### Cases -/

/-- src/field/mod_e222_117.rs, line 539 (the beginning): the brackets are those of the source. -/
example : raw (.bin .add (.var (id! "m_0_0")) (.bin .shl (.bin .and (.var (id! "m_0_1")) (.lit none 0x1fffffff)) (.lit none 29))) =
    [.id (id! "m_0_0"), .sym (id! "+"), .sym (id! "("), .sym (id! "("), .id (id! "m_0_1"), .sym (id! "&"), .num 0x1fffffff 0, .sym (id! ")"),
      .sym (id! "<<"), .num 29 0, .sym (id! ")")] := by decide +kernel

/-- Differences associate to the left, and `as` binds stronger than they do. -/
example : ∃ N, ∀ n, N ≤ n → expr 0 n 0 [.id (id! "a"), .sym (id! "-"), .id (id! "b"), .sym (id! "-"), .id (id! "c"), .id (id! "as"),
      .id (id! "i64"), .sym (id! ";")] =
    some (.bin .sub (.bin .sub (.var (id! "a")) (.var (id! "b"))) (.cast (.var (id! "c")) .i64), [.sym (id! ";")]) :=
  C95_expression 0 (e := .bin .sub (.bin .sub (.var (id! "a")) (.var (id! "b"))) (.cast (.var (id! "c")) .i64))
    ⟨⟨show _ ∉ _ by decide, show _ ∉ _ by decide⟩, show _ ∉ _ by decide⟩ (rest := [.sym (id! ";")])
    ⟨⟨⟨rfl, rfl, rfl⟩, rfl, rfl⟩, rfl, fun r h => by cases h⟩ rfl

/-- A method of an element, with an argument behind a reference, and a call with a path. -/
example : raw (.method (.index (.field (.var (id! "self")) (id! "0")) (.lit none 1)) (id! "mul")
      (.acons (.ref (.path [id! "T", id! "new"] .anil)) (.acons (.bin .add (.var (id! "a")) (.lit none 1)) .anil))) =
    [.id (id! "self"), .sym (id! "."), .num 0 0, .sym (id! "["), .num 1 0, .sym (id! "]"), .sym (id! "."), .id (id! "mul"), .sym (id! "("),
      .sym (id! "&"), .id (id! "T"), .sym (id! "::"), .id (id! "new"), .sym (id! "("), .sym (id! ")"), .sym (id! ","),
      .id (id! "a"), .sym (id! "+"), .num 1 0, .sym (id! ")")] := by decide +kernel

example : Simple (.method (.index (.field (.var (id! "self")) (id! "0")) (.lit none 1)) (id! "mul")
      (.acons (.ref (.path [id! "T", id! "new"] .anil)) (.acons (.bin .add (.var (id! "a")) (.lit none 1)) .anil))) :=
  ⟨⟨show _ ∉ _ by decide, trivial⟩, ⟨show _ ∉ _ by decide, trivial⟩, ⟨show _ ∉ _ by decide, trivial⟩, trivial⟩

end Verif
