import Verif.Rust.Syntax

/-!
# A second reader of the sources, as a function of the logic

`Parse.lean` reads the sources at elaboration time.  The reader of this file is a total function of the
logic, written separately, that works on lines given as lists of character codes: the kernel can run it,
and `Verif/Props/Reading.lean` proves that it finds in the text of every file exactly the program that is
used everywhere else.  As in `Parse.lean`, comments, attributes, `use`, `struct` and `trait` declarations,
generic parameters and arguments, lifetimes, visibility, `mut` of local variables and the types in `let` are
not part of the result, and `Self` is replaced by the type of the impl; anything unknown gives `none`.

The first argument `Nat` of recursive functions bounds the depth of the recursion.
-/

namespace Verif.Rust.Grammar

/-! ### Tokens -/

/-- Words and symbols are numbers as in `Syntax.lean` (their characters in base 256). -/
inductive Tok where
  | id (x : Nat)
  /-- a number and its suffix -/
  | num (n suffix : Nat)
  /-- a string -/
  | str (s : List Nat)
  | sym (s : Nat)
  deriving DecidableEq

/-- `a`–`z`, `A`–`Z`, `_` -/
def isLetter (c : Nat) : Bool :=
  (Nat.ble 97 c && Nat.ble c 122) || (Nat.ble 65 c && Nat.ble c 90) || Nat.beq c 95

/-- `0`–`9` -/
def isDigit (c : Nat) : Bool := Nat.ble 48 c && Nat.ble c 57

/-- The value of a digit, if it is one in the base. -/
def digitVal (base c : Nat) : Option Nat :=
  let d := bif isDigit c then c - 48
    else bif Nat.ble 97 c && Nat.ble c 102 then c - 87
    else bif Nat.ble 65 c && Nat.ble c 70 then c - 55
    else 16
  bif Nat.blt d base then some d else none

/-- The word at the beginning, after characters with the number `acc`. -/
def takeWord : List Nat → Nat → Nat × List Nat
  | [], acc => (acc, [])
  | c :: cs, acc => bif isLetter c || isDigit c then takeWord cs (acc * 256 + c) else (acc, c :: cs)

/-- The digits at the beginning. -/
def takeNum (base : Nat) : List Nat → Nat → Nat × List Nat
  | [], acc => (acc, [])
  | c :: cs, acc =>
    match digitVal base c with
    | some d => takeNum base cs (acc * base + d)
    | none => (acc, c :: cs)

/-- The characters up to the quotation mark; no escapes. -/
def takeStr : List Nat → Option (List Nat × List Nat)
  | [] => none
  | c :: cs =>
    bif Nat.beq c 34 then some ([], cs)
    else bif Nat.beq c 92 then none
    else match takeStr cs with
      | some (s, r) => some (c :: s, r)
      | none => none

/-- `::`, `->`, `==`, `<<`, `>>`, `+=`, `-=`, `*=`, `/=`, `&=`, `|=`, `..` -/
def isPair (c d : Nat) : Bool :=
  (bif Nat.beq d 61 then
    Nat.beq c 61 || Nat.beq c 43 || Nat.beq c 45 || Nat.beq c 42 || Nat.beq c 47 || Nat.beq c 38 || Nat.beq c 124
  else bif Nat.beq d 62 then Nat.beq c 62 || Nat.beq c 45
  else Nat.beq c d && (Nat.beq c 58 || Nat.beq c 60 || Nat.beq c 46))

/-- The characters `+-*/%&|()[];=.:{}!,<>#`. -/
def isSym (c : Nat) : Bool :=
  [43, 45, 42, 47, 37, 38, 124, 40, 41, 91, 93, 59, 61, 46, 58, 123, 125, 33, 44, 60, 62, 35].any (Nat.beq c)

/-- A number with its suffix. -/
def number (base : Nat) (cs : List Nat) : Tok × List Nat :=
  let (n, r) := takeNum base cs 0
  let (s, r) := takeWord r 0
  (.num n s, r)

/-- The number that begins with a digit: `0x…`, `0b…` or decimal. -/
def numAt (c : Nat) (cs : List Nat) : Tok × List Nat :=
  match cs with
  | [] => number 10 [c]
  | d :: cs' =>
    bif Nat.beq c 48 && Nat.beq d 120 then number 16 cs'
    else bif Nat.beq c 48 && Nat.beq d 98 then number 2 cs'
    else number 10 (c :: cs)

/-- The tokens of a line. -/
def lexLine : Nat → List Nat → Option (List Tok)
  | 0, _ => none
  | _ + 1, [] => some []
  | n + 1, c :: cs =>
    bif Nat.beq c 32 then lexLine n cs
    else bif isLetter c then
      let (x, r) := takeWord cs c
      (Tok.id x :: ·) <$> lexLine n r
    else bif isDigit c then
      let (t, r) := numAt c cs
      (t :: ·) <$> lexLine n r
    else bif Nat.beq c 34 then
      match takeStr cs with
      | some (s, r) => (Tok.str s :: ·) <$> lexLine n r
      | none => none
    else bif Nat.beq c 39 then   -- a lifetime, not a character literal
      let r := (takeWord cs 0).2
      bif Nat.beq (r.headD 0) 39 then none else lexLine n r
    else match cs with
      | d :: cs' =>
        bif Nat.beq c 47 && Nat.beq d 47 then some []   -- comment
        else bif isPair c d then (Tok.sym (c * 256 + d) :: ·) <$> lexLine n cs'
        else bif isSym c then (Tok.sym c :: ·) <$> lexLine n cs
        else none
      | [] => bif isSym c then (Tok.sym c :: ·) <$> lexLine n cs else none

/-- The tokens of a text. -/
def lex : List (List Nat) → Option (List Tok)
  | [] => some []
  | l :: ls =>
    match lexLine (l.length + 1) l with
    | some t => (t ++ ·) <$> lex ls
    | none => none

/-! ### Elements of the grammar -/

/-- Skip a symbol. -/
def sym (s : Nat) : List Tok → Option (List Tok)
  | .sym x :: ts => bif Nat.beq x s then some ts else none
  | _ => none

/-- Skip a word. -/
def kw (s : Nat) : List Tok → Option (List Tok)
  | .id x :: ts => bif Nat.beq x s then some ts else none
  | _ => none

/-- Skip a word if it is there. -/
def optKw (s : Nat) (ts : List Tok) : List Tok := (kw s ts).getD ts

def ident : List Tok → Option (Nat × List Tok)
  | .id x :: ts => some (x, ts)
  | _ => none

def intTy (x : Nat) : Option IntTy :=
  bif Nat.beq x (id! "i64") then some .i64
  else bif Nat.beq x (id! "i32") then some .i32
  else bif Nat.beq x (id! "i16") then some .i16
  else bif Nat.beq x (id! "i8") then some .i8
  else bif Nat.beq x (id! "u8") then some .u8
  else bif Nat.beq x (id! "usize") then some .usize
  else none

/-- Skip up to a closing symbol, with what is bracketed in between. -/
def skipTo : Nat → Nat → List Tok → Option (List Tok)
  | 0, _, _ => none
  | _ + 1, _, [] => none
  | n + 1, close, .sym s :: ts =>
    bif Nat.beq s close then some ts
    else bif Nat.beq s (id! "(") then (skipTo n (id! ")") ts).bind (skipTo n close)
    else bif Nat.beq s (id! "[") then (skipTo n (id! "]") ts).bind (skipTo n close)
    else bif Nat.beq s (id! "{") then (skipTo n (id! "}") ts).bind (skipTo n close)
    else skipTo n close ts
  | n + 1, close, _ :: ts => skipTo n close ts

/-- Skip up to the end of `depth` nested `<…>`. -/
def skipAngles : List Tok → Nat → Option (List Tok)
  | ts, 0 => some ts
  | [], _ + 1 => none
  | .sym s :: ts, depth + 1 =>
    bif Nat.beq s (id! "<") then skipAngles ts (depth + 2)
    else bif Nat.beq s (id! ">") then skipAngles ts depth
    else bif Nat.beq s (id! ">>") then
      match depth with
      | 0 => some (.sym (id! ">") :: ts)
      | d + 1 => skipAngles ts d
    else skipAngles ts (depth + 1)
  | _ :: ts, depth + 1 => skipAngles ts (depth + 1)

/-- Generic parameters or arguments, if there are any. -/
def generics (ts : List Tok) : Option (List Tok) :=
  match sym (id! "<") ts with
  | some ts => skipAngles ts 1
  | none => some ts

/-- `Self` is the type of the impl. -/
def resolve (self x : Nat) : Nat := bif Nat.beq x (id! "Self") then self else x

/-- The rest of a path of types: its last name. -/
def tyPath : Nat → Nat → List Tok → Option (Nat × List Tok)
  | 0, _, _ => none
  | n + 1, x, ts =>
    match sym (id! "::") ts with
    | none => some (x, ts)
    | some ts =>
      match ident ts with
      | none => none
      | some (x, ts) => (generics ts).bind (tyPath n x)

/-- A type: a path, or an array or slice. -/
def tyBase (self : Nat) (ts : List Tok) : Option (Nat × List Tok) :=
  match sym (id! "[") ts with
  | some ts => (skipTo 100 (id! "]") ts).map fun ts => (id! "[]", ts)
  | none =>
    match ident ((sym (id! "::") ts).getD ts) with
    | none => none
    | some (x, ts) => (generics ts).bind (tyPath 10 (resolve self x))

/-- A type, perhaps behind one `&` or `&mut`. -/
def ty (self : Nat) (ts : List Tok) : Option (Ty × List Tok) :=
  match sym (id! "&") ts with
  | none => (tyBase self ts).map fun r => (⟨false, false, r.1⟩, r.2)
  | some ts =>
    match kw (id! "mut") ts with
    | none => (tyBase self ts).map fun r => (⟨true, false, r.1⟩, r.2)
    | some ts => (tyBase self ts).map fun r => (⟨true, true, r.1⟩, r.2)

/-! ### Format strings -/

/-- The characters up to the next `{`; a `}` is not allowed. -/
def takeText : List Nat → Option (List Nat × List Nat)
  | [] => some ([], [])
  | c :: cs =>
    bif Nat.beq c 123 then some ([], c :: cs)
    else bif Nat.beq c 125 then none
    else (takeText cs).map fun r => (c :: r.1, r.2)

/-- `{:x}`, `{:02x}`, `{:02X}` and plain text. -/
def fmt : Nat → List Nat → Option (List Fmt)
  | 0, _ => none
  | _ + 1, [] => some []
  | n + 1, 123 :: 58 :: 120 :: 125 :: r => (Fmt.hex :: ·) <$> fmt n r
  | n + 1, 123 :: 58 :: 48 :: 50 :: 120 :: 125 :: r => (Fmt.hex02 false :: ·) <$> fmt n r
  | n + 1, 123 :: 58 :: 48 :: 50 :: 88 :: 125 :: r => (Fmt.hex02 true :: ·) <$> fmt n r
  | _ + 1, 123 :: _ => none
  | n + 1, cs =>
    match takeText cs with
    | some (t, r) => (Fmt.text t :: ·) <$> fmt n r
    | none => none

/-! ### Expressions -/

/-- Binary operators with their precedence. -/
def binOp : List Tok → Option (Nat × BinOp × List Tok)
  | .sym s :: ts =>
    bif Nat.beq s (id! "==") then some (0, .eq, ts)
    else bif Nat.beq s (id! "|") then some (1, .or, ts)
    else bif Nat.beq s (id! "&") then some (2, .and, ts)
    else bif Nat.beq s (id! "<<") then some (3, .shl, ts)
    else bif Nat.beq s (id! ">>") then some (3, .shr, ts)
    else bif Nat.beq s (id! "+") then some (4, .add, ts)
    else bif Nat.beq s (id! "-") then some (4, .sub, ts)
    else bif Nat.beq s (id! "*") then some (5, .mul, ts)
    else bif Nat.beq s (id! "/") then some (5, .div, ts)
    else bif Nat.beq s (id! "%") then some (5, .rem, ts)
    else none
  | _ => none

/-- Does the name begin with an upper-case letter? -/
def isUpperName : Nat → Nat → Bool
  | 0, _ => false
  | n + 1, x => bif Nat.blt x 256 then Nat.ble 65 x && Nat.ble x 90 else isUpperName n (x / 256)

mutual
/-- An expression whose binary operators outside brackets have at least the given precedence. -/
def expr (self : Nat) : Nat → Nat → List Tok → Option (Expr × List Tok)
  | 0, _, _ => none
  | n + 1, prec, ts =>
    match unary self n ts with
    | some (a, ts) =>
      match casts self n a ts with
      | some (a, ts) => more self n prec a ts
      | none => none
    | none => none

/-- `as T`, any number of times. -/
def casts (self : Nat) : Nat → Expr → List Tok → Option (Expr × List Tok)
  | 0, _, _ => none
  | n + 1, a, ts =>
    match kw (id! "as") ts with
    | none => some (a, ts)
    | some ts =>
      match ident ts with
      | some (x, ts) =>
        match intTy x with
        | some t => casts self n (.cast a t) ts
        | none => none
      | none => none

/-- Further operands; operators of the same precedence associate to the left. -/
def more (self : Nat) : Nat → Nat → Expr → List Tok → Option (Expr × List Tok)
  | 0, _, _, _ => none
  | n + 1, prec, a, ts =>
    match binOp ts with
    | none => some (a, ts)
    | some (p, o, ts') =>
      bif Nat.ble prec p then
        match expr self n (p + 1) ts' with
        | some (b, ts') => more self n prec (.bin o a b) ts'
        | none => none
      else some (a, ts)

/-- Prefix operators. -/
def unary (self : Nat) : Nat → List Tok → Option (Expr × List Tok)
  | 0, _ => none
  | n + 1, ts =>
    match sym (id! "&") ts with
    | some ts => (unary self n (optKw (id! "mut") ts)).map fun r => (.ref r.1, r.2)
    | none =>
      match sym (id! "*") ts with
      | some ts => (unary self n ts).map fun r => (.deref r.1, r.2)
      | none =>
        match sym (id! "!") ts with
        | some ts => (unary self n ts).map fun r => (.not r.1, r.2)
        | none =>
          match atom self n ts with
          | some (e, ts) => post self n e ts
          | none => none

/-- Fields, method calls and indexing. -/
def post (self : Nat) : Nat → Expr → List Tok → Option (Expr × List Tok)
  | 0, _, _ => none
  | n + 1, e, ts =>
    match sym (id! ".") ts with
    | some (.num 0 0 :: ts) => post self n (.field e (id! "0")) ts
    | some (.id x :: ts) =>
      match sym (id! "(") ts with
      | some ts =>
        match list self n (id! ")") ts with
        | some (a, ts) => post self n (.method e x a) ts
        | none => none
      | none => post self n (.field e x) ts
    | some _ => none
    | none =>
      match sym (id! "[") ts with
      | none => some (e, ts)
      | some ts =>
        match expr self n 0 ts with
        | some (i, ts) =>
          match sym (id! "]") ts with
          | some ts => post self n (.index e i) ts
          | none => none
        | none => none

/-- Expressions separated by commas, up to a closing bracket. -/
def list (self : Nat) : Nat → Nat → List Tok → Option (Expr × List Tok)
  | 0, _, _ => none
  | n + 1, close, ts =>
    match sym close ts with
    | some ts => some (.anil, ts)
    | none =>
      match expr self n 0 ts with
      | some (a, ts) =>
        match sym (id! ",") ts with
        | some ts => (list self n close ts).map fun r => (.acons a r.1, r.2)
        | none => (sym close ts).map fun ts => (.acons a .anil, ts)
      | none => none

/-- Fields of a struct, up to the closing brace. -/
def fields (self : Nat) : Nat → List Tok → Option (List Id × Expr × List Tok)
  | 0, _ => none
  | n + 1, ts =>
    match sym (id! "}") ts with
    | some ts => some ([], .anil, ts)
    | none =>
      match ident ts with
      | some (x, ts) =>
        match (sym (id! ":") ts).bind (expr self n 0) with
        | some (e, ts) =>
          match sym (id! ",") ts with
          | some ts => (fields self n ts).map fun r => (x :: r.1, .acons e r.2.1, r.2.2)
          | none => (sym (id! "}") ts).map fun ts => ([x], .acons e .anil, ts)
        | none => none
      | none => none

/-- The rest of a path and the arguments of the call. -/
def path (self : Nat) : Nat → List Id → List Tok → Option (Expr × List Tok)
  | 0, _, _ => none
  | n + 1, p, ts =>
    match sym (id! "::") ts with
    | some ts =>
      match ident ts with
      | some (x, ts) => path self n (p ++ [x]) ts
      | none => none
    | none =>
      match (sym (id! "(") ts).bind (list self n (id! ")")) with
      | some (a, ts) => some (.path p a, ts)
      | none => none

/-- Literals, arrays, macros, calls, structs, variables, brackets. -/
def atom (self : Nat) : Nat → List Tok → Option (Expr × List Tok)
  | 0, _ => none
  | _ + 1, [] => none
  | _ + 1, .str _ :: _ => none
  | _ + 1, .num k s :: ts =>
    bif Nat.beq s 0 then some (.lit none k, ts)
    else match intTy s with
      | some t => some (.lit (some t) k, ts)
      | none => none
  | n + 1, .sym s :: ts =>
    bif Nat.beq s (id! "(") then
      match sym (id! ")") ts with
      | some ts => some (.unit, ts)
      | none =>
        match expr self n 0 ts with
        | some (e, ts) => (sym (id! ")") ts).map fun ts => (e, ts)
        | none => none
    else bif Nat.beq s (id! "[") then
      match sym (id! "]") ts with
      | some ts => some (.array .anil, ts)
      | none =>
        match expr self n 0 ts with
        | some (e, ts) =>
          match sym (id! ";") ts with
          | some (.num k 0 :: ts) => (sym (id! "]") ts).map fun ts => (.rep e k, ts)
          | some _ => none
          | none =>
            match sym (id! ",") ts with
            | some ts => (list self n (id! "]") ts).map fun r => (.array (.acons e r.1), r.2)
            | none => (sym (id! "]") ts).map fun ts => (.array (.acons e .anil), ts)
        | none => none
    else none
  | n + 1, .id x :: ts =>
    bif Nat.beq x (id! "true") then some (.bool true, ts)
    else bif Nat.beq x (id! "false") then some (.bool false, ts)
    else bif Nat.beq x (id! "try") then
      match ((sym (id! "!") ts).bind (sym (id! "("))).bind (expr self n 0) with
      | some (e, ts) => (sym (id! ")") ts).map fun ts => (.try e, ts)
      | none => none
    else bif Nat.beq x (id! "write") then
      match ((sym (id! "!") ts).bind (sym (id! "("))).bind (expr self n 0) with
      | some (e, ts) =>
        match sym (id! ",") ts with
        | some (.str s :: ts) =>
          match fmt (s.length + 1) s with
          | some fs =>
            match sym (id! ",") ts with
            | some ts => (list self n (id! ")") ts).map fun r => (.write e fs r.1, r.2)
            | none => (sym (id! ")") ts).map fun ts => (.write e fs .anil, ts)
          | none => none
        | _ => none
      | none => none
    else
      let x := resolve self x
      match sym (id! "::") ts, sym (id! "(") ts, sym (id! "{") ts with
      | some _, _, _ => path self n [x] ts
      | none, some _, _ => path self n [x] ts
      | none, none, some ts' =>
        bif isUpperName 100 x then
          (fields self n ts').map fun r => (.struct x r.1 r.2.1, r.2.2)
        else some (.var x, ts)
      | none, none, none => some (.var x, ts)
end

/-! ### Statements -/

/-- The operator of a compound assignment. -/
def assignOp : List Tok → Option (BinOp × List Tok)
  | .sym s :: ts =>
    bif Nat.beq s (id! "+=") then some (.add, ts)
    else bif Nat.beq s (id! "-=") then some (.sub, ts)
    else bif Nat.beq s (id! "*=") then some (.mul, ts)
    else bif Nat.beq s (id! "/=") then some (.div, ts)
    else bif Nat.beq s (id! "&=") then some (.and, ts)
    else bif Nat.beq s (id! "|=") then some (.or, ts)
    else none
  | _ => none

/-- `;`, or the brace that ends the block, which is not skipped. -/
def semi (ts : List Tok) : Option (List Tok) :=
  match sym (id! ";") ts with
  | some ts => some ts
  | none => (sym (id! "}") ts).map fun _ => ts

/-- An expression, with enough depth. -/
def ex (self : Nat) (ts : List Tok) : Option (Expr × List Tok) := expr self 1000 0 ts

/-- Statements up to the closing brace, and the final expression. -/
def block (self : Nat) : Nat → List Tok → Option (Block × Expr × List Tok)
  | 0, _ => none
  | n + 1, ts =>
    match sym (id! "}") ts with
    | some ts => some (.nil, .unit, ts)
    | none =>
    match kw (id! "let") ts with
    | some ts =>
      match ident (optKw (id! "mut") ts) with
      | some (x, ts) =>
        let ts := match sym (id! ":") ts with
          | some ts => (ty self ts).map fun (r : Ty × List Tok) => r.2
          | none => some ts
        match (ts.bind (sym (id! "="))).bind (ex self) with
        | some (e, ts) =>
          match (sym (id! ";") ts).bind (block self n) with
          | some (b, r, ts) => some (.let x e b, r, ts)
          | none => none
        | none => none
      | none => none
    | none =>
    match kw (id! "for") ts with
    | some ts =>
      match ident ts with
      | some (x, ts) =>
        match (kw (id! "in") ts).bind (ex self) with
        | some (a, ts) =>
          match (sym (id! "..") ts).bind (ex self) with
          | some (c, ts) =>
            match (sym (id! "{") ts).bind (block self n) with
            | some (body, .unit, ts) =>
              match block self n ts with
              | some (b, r, ts) => some (.for x a c body b, r, ts)
              | none => none
            | _ => none
          | none => none
        | none => none
      | none => none
    | none =>
    match kw (id! "return") ts with
    | some ts =>
      match ex self ts with
      | some (e, ts) => ((sym (id! ";") ts).bind (sym (id! "}"))).map fun ts => (.nil, e, ts)
      | none => none
    | none =>
    match ex self ts with
    | none => none
    | some (e, ts) =>
      match sym (id! "=") ts with
      | some ts =>
        match ex self ts with
        | some (v, ts) =>
          match (semi ts).bind (block self n) with
          | some (b, r, ts) => some (.assign e v b, r, ts)
          | none => none
        | none => none
      | none =>
      match assignOp ts with
      | some (o, ts) =>
        match ex self ts with
        | some (v, ts) =>
          match (semi ts).bind (block self n) with
          | some (b, r, ts) => some (.opAssign o e v b, r, ts)
          | none => none
        | none => none
      | none =>
      match sym (id! ";") ts with
      | some ts =>
        match block self n ts with
        | some (b, r, ts) => some (.expr e b, r, ts)
        | none => none
      | none => (sym (id! "}") ts).map fun ts => (.nil, e, ts)

/-! ### Items -/

/-- Parameters other than the receiver. -/
def params (self : Nat) : Nat → List Tok → Option (List (Id × Ty) × List Tok)
  | 0, _ => none
  | n + 1, ts =>
    match sym (id! ")") ts with
    | some ts => some ([], ts)
    | none =>
      match ident ts with
      | some (x, ts) =>
        match (sym (id! ":") ts).bind (ty self) with
        | some (t, ts) =>
          match sym (id! ",") ts with
          | some ts => (params self n ts).map fun r => ((x, t) :: r.1, r.2)
          | none => (sym (id! ")") ts).map fun ts => ([(x, t)], ts)
        | none => none
      | none => none

/-- The receiver, and the comma after it. -/
def recv (ts : List Tok) : Option (Recv × List Tok) :=
  let fin := fun (r : Recv) (ts : List Tok) =>
    match sym (id! ",") ts with
    | some ts => some (r, ts)
    | none => (sym (id! ")") ts).map fun _ => (r, ts)
  match kw (id! "self") ts, sym (id! "&") ts with
  | some ts, _ => fin .val ts
  | none, some ts =>
    match kw (id! "self") ts with
    | some ts => fin .ref ts
    | none =>
      match (kw (id! "mut") ts).bind (kw (id! "self")) with
      | some ts => fin .mut ts
      | none => none
  | none, none => some (.none, ts)

/-- A function, `fn` having been read. -/
def fn (self : Nat) (ts : List Tok) : Option (Fn × List Tok) :=
  match ident ts with
  | some (name, ts) =>
    match ((generics ts).bind (sym (id! "("))).bind recv with
    | some (rc, ts) =>
      match params self 100 ts with
      | some (ps, ts) =>
        let out := match sym (id! "->") ts with
          | some ts => ty self ts
          | none => some (⟨false, false, id! "()"⟩, ts)
        match out with
        | some (out, ts) =>
          match (sym (id! "{") ts).bind (block self 10000) with
          | some (b, r, ts) => some (⟨self, name, rc, ps, out, b, r⟩, ts)
          | none => none
        | none => none
      | none => none
    | none => none
  | none => none

/-- The inside of an impl. -/
def implItems (self : Nat) : Nat → List Tok → Option (List (Id × Id) × List Fn × List Tok)
  | 0, _ => none
  | n + 1, ts =>
    match sym (id! "}") ts with
    | some ts => some ([], [], ts)
    | none =>
    match kw (id! "type") ts with
    | some ts =>
      match ident ts with
      | some (x, ts) =>
        match (sym (id! "=") ts).bind (ty self) with
        | some (t, ts) =>
          match (sym (id! ";") ts).bind (implItems self n) with
          | some (l, fs, ts) => some ((x, t.name) :: l, fs, ts)
          | none => none
        | none => none
      | none => none
    | none =>
      match (kw (id! "fn") (optKw (id! "pub") ts)).bind (fn self) with
      | some (f, ts) =>
        match implItems self n ts with
        | some (l, fs, ts) => some (l, f :: fs, ts)
        | none => none
      | none => none

/-- The part of an impl after `for`, given the name of the trait and its argument. -/
def implFor (trait : Id) (arg : Option Ty) (ts : List Tok) : Option (Impl × List Tok) :=
  match ty 0 ts with
  | some (self, ts) =>
    match (sym (id! "{") ts).bind (implItems self.name 1000) with
    | some (l, fs, ts) => some (⟨trait, arg.getD self, self, l, fs⟩, ts)
    | none => none
  | none => none

/-- An impl, `impl` having been read.  A trait is a single name with at most one type argument. -/
def impl (ts : List Tok) : Option (Impl × List Tok) :=
  match generics ts with
  | none => none
  | some ts =>
    match ident ts with
    | none => none
    | some (x, ts) =>
      match kw (id! "for") ts with
      | some ts => implFor x none ts
      | none =>
        match (generics ts).bind (sym (id! "{")) with
        | some ts =>
          match implItems x 1000 ts with
          | some (l, fs, ts) => some (⟨0, ⟨false, false, x⟩, ⟨false, false, x⟩, l, fs⟩, ts)
          | none => none
        | none =>
          match (sym (id! "<") ts).bind (ty 0) with
          | some (arg, ts) =>
            match (sym (id! ">") ts).bind (kw (id! "for")) with
            | some ts => implFor x (some arg) ts
            | none => none
          | none => none

/-- The items of a file. -/
def items : Nat → List Tok → Option Program
  | 0, _ => none
  | _ + 1, [] => some ⟨[], []⟩
  | n + 1, ts =>
    match sym (id! "#") ts with
    | some ts => (((sym (id! "[") ts).bind (skipTo 1000 (id! "]"))).bind (items n))
    | none =>
    match kw (id! "pub") ts with
    | some ts => items n ts
    | none =>
    match kw (id! "use") ts with
    | some ts => (skipTo 1000 (id! ";") ts).bind (items n)
    | none =>
    match kw (id! "struct") ts with
    | some ts =>
      match ident ts with
      | none => none
      | some (_, ts) =>
        match generics ts with
        | none => none
        | some ts =>
          match sym (id! "(") ts with
          | some ts => ((skipTo 1000 (id! ")") ts).bind (sym (id! ";"))).bind (items n)
          | none => ((sym (id! "{") ts).bind (skipTo 1000 (id! "}"))).bind (items n)
    | none =>
    match kw (id! "trait") ts with
    | some ts => ((skipTo 1000 (id! "{") ts).bind (skipTo 1000 (id! "}"))).bind (items n)
    | none =>
    match kw (id! "const") ts with
    | some ts =>
      match ident ts with
      | none => none
      | some (x, ts) =>
        match (sym (id! ":") ts).bind (ty 0) with
        | none => none
        | some (t, ts) =>
          match (sym (id! "=") ts).bind (ex 0) with
          | none => none
          | some (e, ts) =>
            match (sym (id! ";") ts).bind (items n) with
            | some P => some ⟨(x, t, e) :: P.consts, P.impls⟩
            | none => none
    | none =>
    match kw (id! "impl") ts with
    | some ts =>
      match impl ts with
      | some (i, ts) =>
        match items n ts with
        | some P => some ⟨P.consts, i :: P.impls⟩
        | none => none
      | none => none
    | none => none

/-- The program of a text. -/
def read (lines : List (List Nat)) : Option Program := (lex lines).bind (items 10000)

end Verif.Rust.Grammar
