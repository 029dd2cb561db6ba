import Verif.Props.Discipline

/-!
# Property C53: programs that look at intermediate results

C25 and C42 are about computations fixed in advance.  Here a client may look at intermediate
results (compare elements, read bits, packed bytes and hex digits) and let what it does next
depend on the answers in any way: a client is a tree of instructions, with one subtree for every
possible answer.  Loops of any kind are covered as far as they terminate, being unfolded in the
tree.  The client cannot tell the field type from `ℤ / p`: it gets the same answers, and returns
the same result, as if every element were a residue class.
-/

namespace Verif
open Fld FieldCode

/-- Instructions that create a new element from the elements created before (numbered from 0 in
order of creation; an unused number stands for `ZERO`). -/
inductive Op where
  | zero | one | mOne | modulus
  | bytes (bs : List Int)
  | rand (rng : Nat → Int → Int)
  | add (i j : Nat) | sub (i j : Nat) | mul (i j : Nat) | div (i j : Nat)
  | addI (i : Nat) (n : Int) | subI (i : Nat) (n : Int)
  | square (i : Nat) | invert (i : Nat) | legendre (i : Nat) | sqrt (i : Nat)
  /-- selection with masks, as in the ladder: `i` if the bit is set, else `j` -/
  | select (b : Bool) (i j : Nat)

/-- Clients with results of type `α`. -/
inductive Client (α : Type) where
  | done (x : α)
  | step (o : Op) (k : Client α)
  /-- `x.normalize()` -/
  | normalize (i : Nat) (k : Client α)
  /-- `x.normalize_eq(&mut y)`; `i = j` stands for the comparison with a copy -/
  | eq (i j : Nat) (k : Bool → Client α)
  /-- `x.bit(idx)` -/
  | bit (i idx : Nat) (k : Bool → Client α)
  /-- `x.packed()` -/
  | packed (i : Nat) (k : List Int → Client α)
  /-- `format!("{:x}", x)` or `format!("{:X}", x)` -/
  | hex (upper : Bool) (i : Nat) (k : List Char → Client α)

/-! ### With the code of the field type -/

section
variable (f : Fld) (pr : Profile)

/-- Run an instruction. -/
def Op.exec (rs : List Elem) (o : Op) : Res Elem :=
  let r := fun i => rs.getD i f.code.ZERO
  match o with
  | zero => .ok f.code.ZERO
  | one => .ok f.code.ONE
  | mOne => .ok f.code.M_ONE
  | modulus => .ok f.code.MODULUS
  | bytes bs => f.code.unpacked pr bs
  | rand rng => .ok (f.code.rand rng)
  | add i j => f.code.add pr (r i) (r j)
  | sub i j => f.code.sub pr (r i) (r j)
  | mul i j => f.code.mul pr (r i) (r j)
  | div i j => f.code.div pr (r i) (r j)
  | addI i n => f.code.smallAdd pr (r i) n
  | subI i n => f.code.smallSub pr (r i) n
  | square i => f.code.squared pr (r i)
  | invert i => f.code.inverted pr (r i)
  | legendre i => f.code.legendre pr (r i)
  | sqrt i => f.code.sqrt pr (r i)
  | select b i j => .ok (normalizedBitor (normalizedBitand (r i) (f.code.filled b))
      (normalizedBitand (r j) (f.code.filled !b)))

/-- Run a client; with `nrm`, every new element is normalized at once. -/
def Client.run (nrm : Bool) {α : Type} : Client α → List Elem → Res α
  | done x, _ => .ok x
  | step o k, rs => do
    let x ← o.exec f pr rs
    let x ← if nrm then f.code.normalize pr x else .ok x
    k.run nrm (rs ++ [x])
  | normalize i k, rs => do
    k.run nrm (rs.set i (← f.code.normalize pr (rs.getD i f.code.ZERO)))
  | eq i j k, rs => do
    let (x, y, b) ← f.code.normalizeEq pr (rs.getD i f.code.ZERO) (rs.getD j f.code.ZERO)
    (k b).run nrm ((rs.set i x).set j y)
  | bit i idx k, rs => do
    let (x, b) ← f.code.bit pr (rs.getD i f.code.ZERO) idx
    (k b).run nrm (rs.set i x)
  | packed i k, rs => do
    let (x, out) ← f.code.packed pr (rs.getD i f.code.ZERO)
    (k out).run nrm (rs.set i x)
  | hex upper i k, rs => do
    let s ← f.code.fmtHex pr upper (rs.getD i f.code.ZERO)
    (k s).run nrm rs

end

/-! ### In `ℤ / p` -/

/-- The `n` bytes of a number, lowest first. -/
def leBytes : Nat → Nat → List Int
  | 0, _ => []
  | n + 1, v => ((v % 256 : Nat) : Int) :: leBytes n (v / 256)

/-- The hex digits of `n` bytes of a number, highest first. -/
def hexDigits (upper : Bool) : Nat → Nat → List Char
  | 0, _ => []
  | n + 1, v => hexDigits upper n (v / 256) ++
    let digits := if upper then "0123456789ABCDEF".toList else "0123456789abcdef".toList
    [digits.getD (v / 16 % 16) ' ', digits.getD (v % 16) ' ']

section
variable (f : Fld)

open Classical in
/-- The same instruction in `ℤ / p`. -/
noncomputable def Op.ideal (ds : List (ZMod f.pN)) (o : Op) : ZMod f.pN :=
  let d := fun i => ds.getD i 0
  match o with
  | zero => 0
  | one => 1
  | mOne => -1
  | modulus => 0
  | bytes bs => (leVal (bs.take f.nbytes) % 2 ^ f.n : Int)
  | rand rng => (f.V (f.code.rand rng) : Int)
  | add i j => d i + d j
  | sub i j => d i - d j
  | mul i j => d i * d j
  | div i j => d i * (d j)⁻¹
  | addI i n => d i + n
  | subI i n => d i - n
  | square i => d i * d i
  | invert i => (d i)⁻¹
  | legendre i => if d i = 0 then 0 else if IsSquare (d i) then 1 else -1
  | sqrt i => f.root (d i)
  | select b i j => if b then d i else d j

/-- What the client gets when every element is a residue class. -/
noncomputable def Client.ideal {α : Type} : Client α → List (ZMod f.pN) → α
  | done x, _ => x
  | step o k, ds => k.ideal (ds ++ [o.ideal f ds])
  | normalize _ k, ds => k.ideal ds
  | eq i j k, ds => (k (decide (ds.getD i 0 = ds.getD j 0))).ideal ds
  | bit i idx k, ds => (k ((ds.getD i 0).val.testBit idx)).ideal ds
  | packed i k, ds => (k (leBytes f.nbytes (ds.getD i 0).val)).ideal ds
  | hex upper i k, ds => (k (hexDigits upper f.nbytes (ds.getD i 0).val)).ideal ds

/-- The arguments have the Rust types, byte strings are long enough and, in `Mod_e383_187`, do not
set the bit above the modulus (C12). -/
def Op.Valid : Op → Prop
  | bytes bs => IsBytes bs ∧ f.nbytes ≤ bs.length ∧
      (f = .e383_187 → leVal (bs.take f.nbytes) < 2 ^ f.n)
  | rand rng => IsRng rng
  | addI _ n | subI _ n => IsI32 n
  | _ => True

/-- All instructions the client can come to are among those of `P` and have valid arguments, and
bit indices are inside the words.  (Packed bytes are known to encode a number below the modulus, so
that they may be unpacked again.) -/
def Client.Uses (P : Op → Prop) {α : Type} : Client α → Prop
  | done _ => True
  | step o k => P o ∧ o.Valid f ∧ k.Uses P
  | normalize _ k => k.Uses P
  | eq _ _ k => ∀ b, (k b).Uses P
  | bit _ idx k => idx < f.L * f.k ∧ ∀ b, (k b).Uses P
  | packed _ k => ∀ out, out.length = f.nbytes → IsBytes out → leVal out < f.p → (k out).Uses P
  | hex _ _ k => ∀ s, (k s).Uses P

end

/-- Instructions other than `-` between elements. -/
def Op.NotSub : Op → Prop
  | sub _ _ => False
  | _ => True

/-- Instructions other than the four exponentiations. -/
def Op.NotPow : Op → Prop
  | div _ _ | invert _ | legendre _ | sqrt _ => False
  | _ => True


/-! ### Proofs -/

theorem leBytes_length (n v : Nat) : (leBytes n v).length = n := by
  induction n generalizing v with
  | zero => rfl
  | succ n ih => simp only [leBytes, List.length_cons, ih]

/-- A list of bytes is determined by its length and value. -/
theorem eq_leBytes {out : List Int} (h : IsBytes out) : ∀ {v : Nat}, leVal out = v →
    out = leBytes out.length v := by
  induction out with
  | nil => intro v _; rfl
  | cons x xs ih =>
    intro v hv
    have hx := h x (by simp)
    have e : leVal (x :: xs) = x + 256 * leVal xs := by
      simp only [leVal, digitsVal]; norm_num
    rw [e] at hv
    simp only [List.length_cons, leBytes]
    have h0 : 0 ≤ leVal xs := leVal_nonneg fun b hb => h b (by simp [hb])
    rw [← ih (fun b hb => h b (by simp [hb])) (v := v / 256) (by omega)]
    congr 1
    omega

theorem hexByte_eq (upper : Bool) (v : Nat) : FieldCode.hexByte upper ((v % 256 : Nat) : Int) =
    [(if upper then "0123456789ABCDEF".toList else "0123456789abcdef".toList).getD (v / 16 % 16) ' ',
     (if upper then "0123456789ABCDEF".toList else "0123456789abcdef".toList).getD (v % 16) ' '] := by
  have key : ∀ u : Bool, ∀ n < 16, FieldCode.hexDigit u n =
      (if u then "0123456789ABCDEF".toList else "0123456789abcdef".toList).getD n ' ' := by decide
  have e1 : v % 256 / 16 = v / 16 % 16 := by omega
  have e2 : v % 256 % 16 = v % 16 := by omega
  simp only [FieldCode.hexByte, Int.toNat_natCast, e1, e2]
  rw [key upper _ (Nat.mod_lt _ (by norm_num)), key upper _ (Nat.mod_lt _ (by norm_num))]

theorem hex_leBytes (upper : Bool) (n v : Nat) :
    ((leBytes n v).reverse.map (FieldCode.hexByte upper)).flatten = hexDigits upper n v := by
  induction n generalizing v with
  | zero => rfl
  | succ n ih =>
    simp only [leBytes, List.reverse_cons, List.map_append, List.flatten_append, ih, hexDigits,
      List.map_cons, List.map_nil, List.flatten_cons, List.flatten_nil, List.append_nil, hexByte_eq]

section
variable {f : Fld} {pr : Profile}

theorem val_cast {a : Elem} {d : ZMod f.pN} (h : ((f.V a : Int) : ZMod f.pN) = d) :
    f.V a % f.p = (d.val : Int) := by
  rw [← h, ZMod.val_intCast, ← p_eq]

theorem forall₂_getD {I : ZMod f.pN → Elem → Prop} (hz : I 0 f.code.ZERO)
    {ds : List (ZMod f.pN)} {rs : List Elem} (h : List.Forall₂ I ds rs) (i : Nat) :
    I (ds.getD i 0) (rs.getD i f.code.ZERO) := by
  induction h generalizing i with
  | nil => exact hz
  | cons h1 _ ih =>
    cases i with
    | zero => exact h1
    | succ i => exact ih i

theorem forall₂_set {I : ZMod f.pN → Elem → Prop}
    {ds : List (ZMod f.pN)} {rs : List Elem} (h : List.Forall₂ I ds rs) (i : Nat) {x : Elem}
    (hx : I (ds.getD i 0) x) : List.Forall₂ I ds (rs.set i x) := by
  induction h generalizing i with
  | nil => exact .nil
  | cons h1 h2 ih =>
    cases i with
    | zero => exact .cons hx h2
    | succ i => exact .cons h1 (ih i hx)

theorem forall₂_snoc {I : ZMod f.pN → Elem → Prop}
    {ds : List (ZMod f.pN)} {rs : List Elem} (h : List.Forall₂ I ds rs) {d : ZMod f.pN} {x : Elem}
    (hx : I d x) : List.Forall₂ I (ds ++ [d]) (rs ++ [x]) := by
  induction h with
  | nil => exact .cons hx .nil
  | cons h1 _ ih => exact .cons h1 ih

/-- A relation between residue classes and elements that is kept by the instructions in `P`, and
related elements are observed correctly: then clients cannot see a difference. -/
theorem Client.sim {I : ZMod f.pN → Elem → Prop} {P : Op → Prop} {nrm : Bool}
    (hz : I 0 f.code.ZERO)
    (hg : ∀ {d a}, I d a → f.Tight a ∧ f.Foldable (f.V a) ∧ ((f.V a : Int) : ZMod f.pN) = d)
    (hn : ∀ {d a a'}, I d a → f.code.normalize pr a = .ok a' → I d a')
    (hop : ∀ {o ds rs}, P o → o.Valid f → List.Forall₂ I ds rs →
      ∃ x y, o.exec f pr rs = .ok x ∧
        (if nrm then f.code.normalize pr x else .ok x) = .ok y ∧ I (o.ideal f ds) y)
    {α : Type} (c : Client α) : ∀ {ds : List (ZMod f.pN)} {rs : List Elem}, c.Uses f P →
      List.Forall₂ I ds rs → c.run f pr nrm rs = .ok (c.ideal f ds) := by
  have hc : ∀ {d a a'}, I d a → f.Canon (f.V a % f.p) a' → I d a' := by
    intro d a a' h1 h2
    obtain ⟨r, h3, -, h4⟩ := C09_normalize_correct_iff f pr (Tight.rep (hg h1).1)
    rw [C09_canonical_unique f h2 (h4.mpr (hg h1).2.1)]
    exact hn h1 h3
  induction c with
  | done x => intro ds rs _ _; rfl
  | step o k ih =>
    intro ds rs hu h
    obtain ⟨x, y, h1, h2, h3⟩ := hop hu.1 hu.2.1 h
    cases nrm with
    | false =>
      cases h2
      simp only [Client.run, Client.ideal, h1, bind, Except.bind]
      exact ih hu.2.2 (forall₂_snoc h h3)
    | true =>
      simp only [if_true] at h2
      simp only [Client.run, Client.ideal, h1, h2, bind, Except.bind, if_true]
      exact ih hu.2.2 (forall₂_snoc h h3)
  | normalize i k ih =>
    intro ds rs hu h
    have hi := forall₂_getD hz h i
    obtain ⟨r, h3, -, h4⟩ := C09_normalize_correct_iff f pr (Tight.rep (hg hi).1)
    simp only [Client.run, Client.ideal, h3, bind, Except.bind]
    exact ih hu (forall₂_set h i (hn hi h3))
  | eq i j k ih =>
    intro ds rs hu h
    have hi := forall₂_getD hz h i
    have hj := forall₂_getD hz h j
    obtain ⟨x, y, b, h1, h2, h3, h4⟩ := C10_normalize_eq_partial f pr (Tight.rep (hg hi).1)
      (Tight.rep (hg hj).1) (hg hi).2.1 (hg hj).2.1
    have hb : b = decide (ds.getD i 0 = ds.getD j 0) := by
      rw [modEq_iff, (hg hi).2.2, (hg hj).2.2] at h4
      rw [Bool.eq_iff_iff, h4, decide_eq_true_eq]
    subst hb
    simp only [Client.run, Client.ideal, h1, bind, Except.bind]
    exact ih _ (hu _) (forall₂_set (forall₂_set h i (hc hi h2)) j (hc hj h3))
  | bit i idx k ih =>
    intro ds rs hu h
    have hi := forall₂_getD hz h i
    obtain ⟨x, h1, h2⟩ := (C20_bit_partial f pr (Tight.rep (hg hi).1) (hg hi).2.1 idx).1 hu.1
    have hb : decide ((f.V (rs.getD i f.code.ZERO) % f.p) / 2 ^ idx % 2 = 1) =
        (ds.getD i 0).val.testBit idx := by
      rw [val_cast (hg hi).2.2, Nat.testBit_eq_decide_div_mod_eq]
      exact decide_eq_decide.mpr (by norm_cast)
    rw [hb] at h1
    simp only [Client.run, Client.ideal, h1, bind, Except.bind]
    exact ih _ (hu.2 _) (forall₂_set h i (hc hi h2))
  | packed i k ih =>
    intro ds rs hu h
    have hi := forall₂_getD hz h i
    obtain ⟨x, out, h1, h2, h3, h4, h5⟩ := C11_packed_partial f pr (Tight.rep (hg hi).1)
      (hg hi).2.1
    have hlt : leVal out < f.p := by rw [h5]; exact Int.emod_lt_of_pos _ f.p_pos
    have hk := hu out h3 h4 hlt
    rw [val_cast (hg hi).2.2] at h5
    have e := eq_leBytes h4 h5
    rw [h3] at e
    simp only [Client.run, Client.ideal, h1, bind, Except.bind, ← e]
    exact ih _ hk (forall₂_set h i (hc hi h2))
  | hex upper i k ih =>
    intro ds rs hu h
    have hi := forall₂_getD hz h i
    obtain ⟨x, out, h1, h2, h3, h4, h5⟩ := C11_packed_partial f pr (Tight.rep (hg hi).1)
      (hg hi).2.1
    rw [val_cast (hg hi).2.2] at h5
    have e := eq_leBytes h4 h5
    rw [h3] at e
    have e1 : f.code.fmtHex pr upper (rs.getD i f.code.ZERO) =
        .ok (hexDigits upper f.nbytes (ds.getD i 0).val) := by
      simp only [FieldCode.fmtHex, h1, bind, Except.bind, pure, Except.pure, e, hex_leBytes]
    simp only [Client.run, Client.ideal, e1, bind, Except.bind]
    exact ih _ (hu _) h

end

/-- The computation an instruction appends, when the registers hold the results of `e`. -/
def Op.ex (e : Nat → Ex) : Op → Ex
  | zero => .zero
  | one => .one
  | mOne => .mOne
  | modulus => .modulus
  | bytes bs => .bytes bs
  | rand rng => .rand rng
  | add i j => .add (e i) (e j)
  | sub i j => .sub (e i) (e j)
  | mul i j => .mul (e i) (e j)
  | div i j => .div (e i) (e j)
  | addI i n => .addI (e i) n
  | subI i n => .subI (e i) n
  | square i => .square (e i)
  | invert i => .invert (e i)
  | legendre i => .legendre (e i)
  | sqrt i => .sqrt (e i)
  | select b i j => if b then e i else e j

/-- A computation that gives `(o.ex _).normalize` when every result in it is normalized. -/
def Op.exN (e : Nat → Ex) : Op → Ex
  | zero => .normalize .zero
  | one => .normalize .one
  | mOne => .normalize .mOne
  | rand rng => .normalize (.rand rng)
  | select b i j => .normalize (if b then e i else e j)
  | o => o.ex e

theorem Op.exN_disc (e : Nat → Ex) (o : Op) :
    (o.exN e).disc = .normalize (o.ex fun i => (e i).disc) := by
  cases o with
  | select b i j => cases b <;> rfl
  | _ => rfl

section
variable {f : Fld} {pr : Profile}

theorem Op.ex_exec {e : Nat → Ex} {rs : List Elem}
    (h : ∀ i, (e i).exec f pr = .ok (rs.getD i f.code.ZERO))
    (hw : ∀ i, f.IsWords (rs.getD i f.code.ZERO)) (o : Op) :
    (o.ex e).exec f pr = o.exec f pr rs := by
  cases o with
  | select b i j =>
    simp only [Op.exec, C21_select f b (hw i) (hw j), Op.ex]
    cases b
    · exact h j
    · exact h i
  | _ => simp only [Op.ex, Op.exec, Ex.exec, h, bind, Except.bind]

theorem Op.ex_den {e : Nat → Ex} {ds : List (ZMod f.pN)}
    (h : ∀ i, (e i).den f = ds.getD i 0) (o : Op) : (o.ex e).den f = o.ideal f ds := by
  cases o with
  | select b i j => cases b <;> exact h _
  | _ => simp only [Op.ex, Op.ideal, Ex.den, h]

theorem Op.ex_valid {e : Nat → Ex} (h : ∀ i, (e i).Valid f) {o : Op} (ho : o.Valid f) :
    (o.ex e).Valid f := by
  cases o with
  | zero | one | mOne | modulus => trivial
  | bytes bs => exact ⟨ho.1, ho.2.1⟩
  | rand rng => exact ho
  | add i j | sub i j | mul i j | div i j => exact ⟨h _, h _⟩
  | addI i n | subI i n => exact ⟨h _, ho⟩
  | square i | invert i | legendre i | sqrt i => exact h _
  | select b i j => cases b <;> exact h _

theorem Op.exN_valid {e : Nat → Ex} (h : ∀ i, (e i).Valid f) {o : Op} (ho : o.Valid f) :
    (o.exN e).Valid f := by
  cases o with
  | select b i j => cases b <;> exact h _
  | _ => exact Op.ex_valid h ho

theorem Op.exN_den (e : Nat → Ex) (o : Op) : (o.exN e).den f = (o.ex e).den f := by
  cases o with
  | select b i j => cases b <;> rfl
  | _ => rfl

theorem Op.ex_noSub {e : Nat → Ex} (h : ∀ i, (e i).NoSub f) {o : Op} (ho : o.Valid f)
    (hs : o.NotSub) : (o.ex e).NoSub f := by
  cases o with
  | zero | one | mOne | modulus | rand _ => trivial
  | bytes bs => exact ho.2.2
  | add i j | mul i j | div i j => exact ⟨h _, h _⟩
  | sub i j => exact hs.elim
  | addI i n | subI i n => exact h _
  | square i | invert i | legendre i | sqrt i => exact h _
  | select b i j => cases b <;> exact h _

theorem Op.exN_covered {e : Nat → Ex} (h : ∀ i, (e i).Covered f) {o : Op} (ho : o.Valid f)
    (hs : f = .e251_9 → o.NotPow) : (o.exN e).Covered f := by
  cases o with
  | zero | one | mOne | modulus | rand _ => trivial
  | bytes bs => exact ho.2.2
  | add i j | sub i j | mul i j => exact ⟨h _, h _⟩
  | div i j => exact ⟨hs, h _, h _⟩
  | addI i n | subI i n => exact h _
  | square i => exact h _
  | invert i | legendre i | sqrt i => exact ⟨hs, h _⟩
  | select b i j => cases b <;> exact h _

end

/-! ### C53 -/

/-- C53, seven types: no client without `-` between elements can tell the type from `ℤ / p`,
whether or not it normalizes. -/
theorem C53_client_partial (f : Fld) (hf : f ≠ .e222_117 ∧ f ≠ .e251_9) (pr : Profile)
    {α : Type} (c : Client α) (hc : c.Uses f Op.NotSub) :
    c.run f pr false [] = .ok (c.ideal f []) := by
  let I : ZMod f.pN → Elem → Prop := fun d a =>
    ∃ e : Ex, e.Valid f ∧ e.NoSub f ∧ e.exec f pr = .ok a ∧ e.den f = d
  have hg : ∀ {d a}, I d a →
      f.Tight a ∧ f.Foldable (f.V a) ∧ ((f.V a : Int) : ZMod f.pN) = d := by
    rintro d a ⟨e, h1, h2, h3, rfl⟩
    obtain ⟨b, h4, h5⟩ := bounds_noSub f hf e h1 h2
    obtain ⟨r, h6, h7⟩ := C25_value f pr e h1 h4
    obtain rfl := ok_unique h3 h6
    exact ⟨h7.1, Foldable.of_gt (h5.trans h7.2.1), h7.2.2.2⟩
  have hz : I 0 f.code.ZERO := ⟨.zero, trivial, trivial, rfl, rfl⟩
  refine Client.sim (I := I) (P := Op.NotSub) hz hg ?_ ?_ c hc .nil
  · rintro d a a' ⟨e, h1, h2, h3, rfl⟩ h4
    exact ⟨.normalize e, h1, h2, by simp only [Ex.exec, h3, bind, Except.bind, h4], rfl⟩
  · intro o ds rs ho hv h
    choose e h1 h2 h3 h4 using forall₂_getD hz h
    have hx := Op.ex_exec h3 (fun i => Rep.isWords (Tight.rep (hg (forall₂_getD hz h i)).1)) o
    obtain ⟨x, h5, -⟩ := C08_never_panics f (o.ex e) (Op.ex_valid h1 hv)
    exact ⟨x, x, hx.symm.trans (h5 pr), rfl, o.ex e, Op.ex_valid h1 hv, Op.ex_noSub h2 hv ho, h5 pr,
      Op.ex_den h4 o⟩

/-- C53, all types: no client that normalizes every new element can tell the type from `ℤ / p`;
in `Mod_e251_9` the client may not divide, invert, or compute Legendre symbols and roots. -/
theorem C53_normalized_partial (f : Fld) (pr : Profile) {α : Type} (c : Client α)
    (hc : c.Uses f fun o => f = .e251_9 → o.NotPow) :
    c.run f pr true [] = .ok (c.ideal f []) := by
  let I : ZMod f.pN → Elem → Prop := fun d a =>
    ∃ e : Ex, e.Valid f ∧ e.Covered f ∧ e.disc.exec f pr = .ok a ∧ e.den f = d
  have hg : ∀ {d a}, I d a →
      f.Tight a ∧ f.Foldable (f.V a) ∧ ((f.V a : Int) : ZMod f.pN) = d := by
    rintro d a ⟨e, h1, h2, h3, rfl⟩
    obtain ⟨b, h4, h5, -⟩ := Ex.disc_bounds h1 h2
    obtain ⟨r, h6, h7⟩ := C25_value f pr _ (Ex.disc_valid h1) h4
    obtain rfl := ok_unique h3 h6
    refine ⟨h7.1, Foldable.of_gt ?_, h7.2.2.2.trans (Ex.disc_den f e)⟩
    have := f.p_pos
    have := h7.2.1
    linarith
  have hz : I 0 f.code.ZERO := ⟨.zero, trivial, trivial, rfl, rfl⟩
  refine Client.sim (I := I) (P := fun o => f = .e251_9 → o.NotPow) hz hg ?_ ?_ c hc .nil
  · rintro d a a' ⟨e, h1, h2, h3, rfl⟩ h4
    exact ⟨.normalize e, h1, h2,
      by simp only [Ex.disc, Ex.exec, h3, bind, Except.bind, h4], rfl⟩
  · intro o ds rs ho hv h
    choose e h1 h2 h3 h4 using forall₂_getD hz h
    have hx := Op.ex_exec h3 (fun i => Rep.isWords (Tight.rep (hg (forall₂_getD hz h i)).1)) o
    have hv' := Op.exN_valid h1 hv
    obtain ⟨y, h5, -⟩ := C42_normalized_partial f pr (o.exN e) hv' (Op.exN_covered h2 hv ho)
    have h6 := h5
    rw [Op.exN_disc, Ex.exec, hx] at h6
    cases hxx : o.exec f pr rs with
    | error _ => rw [hxx] at h6; cases h6
    | ok x =>
      rw [hxx] at h6
      exact ⟨x, y, rfl, h6, o.exN e, hv', Op.exN_covered h2 hv ho, h5,
        (Op.exN_den e o).trans (Op.ex_den h4 o)⟩

/-- Full statement of C53: any client without `-` between elements, in any type. -/
def C53_statement : Prop := ∀ (f : Fld) (pr : Profile) (c : Client Bool), c.Uses f Op.NotSub →
  c.run f pr false [] = .ok (c.ideal f [])

/-- Compares `(0 - 1i32) * 1` with `M_ONE`. -/
def lazyClient : Client Bool :=
  .step .zero <| .step (.subI 0 1) <| .step .one <| .step (.mul 1 2) <| .step .mOne <|
    .eq 3 4 .done

set_option maxRecDepth 100000 in
/-- The client `lazyClient` gets the answer "different" from `Mod_e222_117`. -/
theorem C53_statement_false : ¬ C53_statement := by
  intro h
  have h1 := h .e222_117 .debug lazyClient
    (by simp [lazyClient, Client.Uses, Op.NotSub, Op.Valid, IsI32])
  have h2 : (match lazyClient.run .e222_117 .debug false [] with
    | .ok b => b
    | .error _ => true) = false := by decide +kernel
  rw [h1] at h2
  revert h2
  simp [lazyClient, Client.ideal, Op.ideal]

/-- A client with a loop that depends on what it sees: counts how often `x` can be doubled until
the lowest bit of the residue is set (at most `n` times). -/
def countClient : Nat → Nat → Client Nat
  | 0, i => .done i
  | n + 1, i => .bit i 0 fun b => if b then .done i else .step (.add i i) (countClient n (i + 1))

/-- It meets the hypotheses, whatever the number of turns. -/
theorem countClient_uses (f : Fld) (n i : Nat) : (countClient n i).Uses f Op.NotSub := by
  induction n generalizing i with
  | zero => trivial
  | succ n ih =>
    refine ⟨by cases f <;> decide, fun b => ?_⟩
    cases b
    · exact ⟨trivial, trivial, ih _⟩
    · trivial

example (n : Nat) : (Client.step (.bytes (List.replicate 66 4)) (countClient n 0)).Uses .e521_1
    Op.NotSub := ⟨trivial, ⟨by simp [IsBytes], by decide, by decide⟩, countClient_uses _ _ _⟩

/-- A key exchange style client: unpacks a string, takes a root if the Legendre symbol is one,
and returns packed bytes. -/
example : (Client.step (.bytes (List.replicate 32 9)) <| .step (.legendre 0) <| .step .one <|
    .eq 1 2 fun b => if b then .step (.sqrt 0) (.packed 3 fun out => .step (.bytes out)
      (.packed 4 .done)) else .done []).Uses .e255_19 Op.NotSub := by
  refine ⟨trivial, ⟨by simp [IsBytes], by decide, by decide⟩, trivial, trivial, trivial, trivial, ?_⟩
  intro b
  cases b
  · trivial
  · refine ⟨trivial, trivial, fun out h1 h2 _ => ⟨trivial, ⟨h2, h1.ge, nofun⟩, fun _ _ _ _ => trivial⟩⟩

end Verif
