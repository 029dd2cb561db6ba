import Verif.Props.Clients

/-!
# Property C53 with interval analysis

The interval analysis of C25, applied to programs that look at intermediate results: it keeps an interval for
every element the client has created, and knows that an element that has been compared, packed or asked for a bit
is normalized.  Clients it accepts get the same answers as from `ℤ / p`, in all nine types and also with `-`
between elements.  A rule of thumb follows, `Op.Fits`, which looks at single instructions only.
-/

namespace Verif
open Fld FieldCode

section
variable (f : Fld)

/-- The interval of the element an instruction creates (`none` if the instruction may be wrong). -/
def Op.bounds (b : Nat → Int × Int) : Op → Option (Int × Int)
  | zero => some (0, 0)
  | one => some (1, 1)
  | mOne => some (f.p - 1, f.p - 1)
  | modulus => some (f.p, f.p)
  | bytes bs =>
    let v := leVal (bs.take f.nbytes)
    if f = .e383_187 ∧ 2 ^ f.n ≤ v then none else some (v % 2 ^ f.n, v % 2 ^ f.n)
  | rand _ => some (0, f.p - 1)
  | add i j => some ((Ex.foldB f (b i)).1 + (Ex.foldB f (b j)).1, (Ex.foldB f (b i)).2 + (Ex.foldB f (b j)).2)
  | sub i j =>
    if 0 ≤ (b j).1 ∧ (b j).2 < 2 ^ f.n then some ((Ex.foldB f (b i)).1 - (b j).2, (Ex.foldB f (b i)).2 - (b j).1) else none
  | mul i j => if Ex.mulOk f (b i) (b j) then some (Ex.mulB f) else none
  | div i j => if Ex.chainOk f (b j) && Ex.mulOk f (b i) (Ex.sqB f) then some (Ex.mulB f) else none
  | addI i n => some ((Ex.foldB f (b i)).1 + n, (Ex.foldB f (b i)).2 + n)
  | subI i n => some ((Ex.foldB f (b i)).1 - n, (Ex.foldB f (b i)).2 - n)
  | square _ => some (Ex.sqB f)
  | invert i | legendre i | sqrt i => if Ex.chainOk f (b i) then some (Ex.sqB f) else none
  | select c i j => some (if c then b i else b j)

/-- The client is accepted, when the elements it has created are in the given intervals: no instruction may be
wrong, and elements that are observed are not below `-p`. -/
def Client.Safe {α : Type} : Client α → List (Int × Int) → Prop
  | done _, _ => True
  | step o k, bs => o.Valid f ∧ ∃ b, o.bounds f (fun i => bs.getD i (0, 0)) = some b ∧ k.Safe (bs ++ [b])
  | normalize i k, bs => -f.p ≤ (bs.getD i (0, 0)).1 ∧ k.Safe (bs.set i (0, f.p - 1))
  | eq i j k, bs => -f.p ≤ (bs.getD i (0, 0)).1 ∧ -f.p ≤ (bs.getD j (0, 0)).1 ∧
      ∀ b, (k b).Safe ((bs.set i (0, f.p - 1)).set j (0, f.p - 1))
  | bit i idx k, bs => idx < f.L * f.k ∧ -f.p ≤ (bs.getD i (0, 0)).1 ∧ ∀ b, (k b).Safe (bs.set i (0, f.p - 1))
  | packed i k, bs => -f.p ≤ (bs.getD i (0, 0)).1 ∧
      ∀ out, out.length = f.nbytes → IsBytes out → leVal out < f.p → (k out).Safe (bs.set i (0, f.p - 1))
  | hex _ i k, bs => -f.p ≤ (bs.getD i (0, 0)).1 ∧ ∀ s, (k s).Safe bs

end

theorem getD_set_eq {β : Type} (l : List β) (i j : Nat) (x z : β) :
    (l.set i x).getD j z = if i = j ∧ i < l.length then x else l.getD j z := by
  simp only [List.getD_eq_getElem?_getD, List.getElem?_set]
  by_cases h1 : i = j
  · subst h1
    by_cases h2 : i < l.length
    · simp [h2]
    · simp [h2]
  · simp [h1]

theorem getD_snoc_eq {β : Type} (l : List β) (j : Nat) (x z : β) :
    (l ++ [x]).getD j z = if j = l.length then x else l.getD j z := by
  simp only [List.getD_eq_getElem?_getD]
  rcases Nat.lt_trichotomy j l.length with h | h | h
  · rw [List.getElem?_append_left h, if_neg (by omega)]
  · subst h; simp
  · rw [if_neg (by omega), List.getElem?_eq_none (by simp; omega), List.getElem?_eq_none (by omega)]

section
variable {f : Fld} {pr : Profile}

/-- The element is the result of a computation with this interval and this meaning. -/
def Tracked (f : Fld) (pr : Profile) (b : Int × Int) (d : ZMod f.pN) (a : Elem) : Prop :=
  ∃ e : Ex, e.Valid f ∧ e.bounds f = some b ∧ e.exec f pr = .ok a ∧ e.den f = d

theorem Tracked.zero : Tracked f pr (0, 0) 0 f.code.ZERO := ⟨.zero, trivial, rfl, rfl, rfl⟩

theorem Tracked.is {b : Int × Int} {d : ZMod f.pN} {a : Elem} (h : Tracked f pr b d a) :
    f.Tight a ∧ (-f.p ≤ b.1 → f.Foldable (f.V a)) ∧ ((f.V a : Int) : ZMod f.pN) = d := by
  obtain ⟨e, h1, h2, h3, rfl⟩ := h
  obtain ⟨r, h6, h7⟩ := C25_value f pr e h1 h2
  obtain rfl := ok_unique h3 h6
  exact ⟨h7.1, fun h5 => Foldable.of_gt (h5.trans h7.2.1), h7.2.2.2⟩

theorem Tracked.normalize {b : Int × Int} {d : ZMod f.pN} {a a' : Elem} (h : Tracked f pr b d a) (hb : -f.p ≤ b.1)
    (hn : f.code.normalize pr a = .ok a') : Tracked f pr (0, f.p - 1) d a' := by
  obtain ⟨e, h1, h2, h3, rfl⟩ := h
  exact ⟨.normalize e, h1, by simp only [Ex.bounds, h2, Option.bind_some, hb, if_true],
    by simp only [Ex.exec, h3, bind, Except.bind, hn], rfl⟩

theorem Tracked.canon {b : Int × Int} {d : ZMod f.pN} {a a' : Elem} (h : Tracked f pr b d a) (hb : -f.p ≤ b.1)
    (hc : f.Canon (f.V a % f.p) a') : Tracked f pr (0, f.p - 1) d a' := by
  obtain ⟨r, h3, -, h4⟩ := C09_normalize_correct_iff f pr (Tight.rep h.is.1)
  rw [C09_canonical_unique f hc (h4.mpr (h.is.2.1 hb))]
  exact h.normalize hb h3

theorem Op.ex_bounds {e : Nat → Ex} {b : Nat → Int × Int} (h : ∀ i, (e i).bounds f = some (b i)) (o : Op) :
    (o.ex e).bounds f = o.bounds f b := by
  cases o with
  | select c i j => cases c <;> exact h _
  | _ => simp only [Op.ex, Op.bounds, Ex.bounds, h, Option.bind_some, Option.map_some]

/-- The elements created so far are tracked. -/
def TrackedAll (f : Fld) (pr : Profile) (bs : List (Int × Int)) (ds : List (ZMod f.pN)) (rs : List Elem) : Prop :=
  bs.length = rs.length ∧ ds.length = rs.length ∧
    ∀ i, Tracked f pr (bs.getD i (0, 0)) (ds.getD i 0) (rs.getD i f.code.ZERO)

theorem TrackedAll.set {bs : List (Int × Int)} {ds : List (ZMod f.pN)} {rs : List Elem} (h : TrackedAll f pr bs ds rs)
    (i : Nat) {b : Int × Int} {x : Elem} (hx : Tracked f pr b (ds.getD i 0) x) :
    TrackedAll f pr (bs.set i b) ds (rs.set i x) := by
  refine ⟨by simp only [List.length_set, h.1], by simp only [List.length_set, h.2.1], fun j => ?_⟩
  rw [getD_set_eq, getD_set_eq, h.1]
  split
  · next h1 => rw [← h1.1]; exact hx
  · exact h.2.2 j

theorem TrackedAll.snoc {bs : List (Int × Int)} {ds : List (ZMod f.pN)} {rs : List Elem} (h : TrackedAll f pr bs ds rs)
    {b : Int × Int} {d : ZMod f.pN} {x : Elem} (hx : Tracked f pr b d x) :
    TrackedAll f pr (bs ++ [b]) (ds ++ [d]) (rs ++ [x]) := by
  refine ⟨by simp only [List.length_append, List.length_singleton, h.1],
    by simp only [List.length_append, List.length_singleton, h.2.1], fun j => ?_⟩
  rw [getD_snoc_eq, getD_snoc_eq, getD_snoc_eq, h.1, h.2.1]
  split
  · exact hx
  · exact h.2.2 j

theorem Client.safe_sim {α : Type} (c : Client α) : ∀ {bs : List (Int × Int)} {ds : List (ZMod f.pN)}
    {rs : List Elem}, c.Safe f bs → TrackedAll f pr bs ds rs → c.run f pr false rs = .ok (c.ideal f ds) := by
  induction c with
  | done x => intro bs ds rs _ _; rfl
  | step o k ih =>
    intro bs ds rs hu h
    obtain ⟨hv, b, hb, hk⟩ := hu
    choose e h1 h2 h3 h4 using h.2.2
    have hx := Op.ex_exec h3 (fun i => Rep.isWords (Tight.rep (h.2.2 i).is.1)) o
    obtain ⟨x, h5, -⟩ := C08_never_panics f (o.ex e) (Op.ex_valid h1 hv)
    have h6 := hx.symm.trans (h5 pr)
    simp only [Client.run, Client.ideal, h6, bind, Except.bind, Bool.false_eq_true, if_false]
    exact ih hk (h.snoc ⟨o.ex e, Op.ex_valid h1 hv, (Op.ex_bounds h2 o).trans hb, h5 pr, Op.ex_den h4 o⟩)
  | normalize i k ih =>
    intro bs ds rs hu h
    have hi := h.2.2 i
    obtain ⟨r, h3, -, h4⟩ := C09_normalize_correct_iff f pr (Tight.rep hi.is.1)
    simp only [Client.run, Client.ideal, h3, bind, Except.bind]
    exact ih hu.2 (h.set i (hi.normalize hu.1 h3))
  | eq i j k ih =>
    intro bs ds rs hu h
    have hi := h.2.2 i
    have hj := h.2.2 j
    obtain ⟨x, y, b, h1, h2, h3, h4⟩ := C10_normalize_eq_partial f pr (Tight.rep hi.is.1)
      (Tight.rep hj.is.1) (hi.is.2.1 hu.1) (hj.is.2.1 hu.2.1)
    have hb : b = decide (ds.getD i 0 = ds.getD j 0) := by
      rw [modEq_iff, hi.is.2.2, hj.is.2.2] at h4
      rw [Bool.eq_iff_iff, h4, decide_eq_true_eq]
    subst hb
    simp only [Client.run, Client.ideal, h1, bind, Except.bind]
    exact ih _ (hu.2.2 _) ((h.set i (hi.canon hu.1 h2)).set j (hj.canon hu.2.1 h3))
  | bit i idx k ih =>
    intro bs ds rs hu h
    have hi := h.2.2 i
    obtain ⟨x, h1, h2⟩ := (C20_bit_partial f pr (Tight.rep hi.is.1) (hi.is.2.1 hu.2.1) idx).1 hu.1
    have hb : decide ((f.V (rs.getD i f.code.ZERO) % f.p) / 2 ^ idx % 2 = 1) =
        (ds.getD i 0).val.testBit idx := by
      rw [val_cast hi.is.2.2, Nat.testBit_eq_decide_div_mod_eq]
      exact decide_eq_decide.mpr (by norm_cast)
    rw [hb] at h1
    simp only [Client.run, Client.ideal, h1, bind, Except.bind]
    exact ih _ (hu.2.2 _) (h.set i (hi.canon hu.2.1 h2))
  | packed i k ih =>
    intro bs ds rs hu h
    have hi := h.2.2 i
    obtain ⟨x, out, h1, h2, h3, h4, h5⟩ := C11_packed_partial f pr (Tight.rep hi.is.1) (hi.is.2.1 hu.1)
    have hlt : leVal out < f.p := by rw [h5]; exact Int.emod_lt_of_pos _ f.p_pos
    have hk := hu.2 out h3 h4 hlt
    rw [val_cast hi.is.2.2] at h5
    have e := eq_leBytes h4 h5
    rw [h3] at e
    simp only [Client.run, Client.ideal, h1, bind, Except.bind, ← e]
    exact ih _ hk (h.set i (hi.canon hu.1 h2))
  | hex upper i k ih =>
    intro bs ds rs hu h
    have hi := h.2.2 i
    obtain ⟨x, out, h1, h2, h3, h4, h5⟩ := C11_packed_partial f pr (Tight.rep hi.is.1) (hi.is.2.1 hu.1)
    rw [val_cast hi.is.2.2] at h5
    have e := eq_leBytes h4 h5
    rw [h3] at e
    have h6 : f.code.fmtHex pr upper (rs.getD i f.code.ZERO) =
        .ok (hexDigits upper f.nbytes (ds.getD i 0).val) := by
      simp only [FieldCode.fmtHex, h1, bind, Except.bind, e, hex_leBytes, pure, Except.pure]
    simp only [Client.run, Client.ideal, h6, bind, Except.bind]
    exact ih _ (hu.2 _) h

end

/-- C53, all types: no client that the interval analysis accepts can tell the type from `ℤ / p`. -/
theorem C53_analysed_partial (f : Fld) (pr : Profile) {α : Type} (c : Client α) (hc : c.Safe f []) :
    c.run f pr false [] = .ok (c.ideal f []) :=
  Client.safe_sim c hc ⟨rfl, rfl, fun _ => .zero⟩

/-! ### Instructions that are always accepted -/

/-- No `-` between elements; in `Mod_e222_117` no negative integers are added and no positive ones subtracted; in
`Mod_e251_9` there are no products and exponentiations (but squares). -/
def Op.Fits (f : Fld) : Op → Prop
  | sub _ _ => False
  | addI _ n => f = .e222_117 → 0 ≤ n
  | subI _ n => f = .e222_117 → n ≤ 0
  | mul _ _ | div _ _ | invert _ | legendre _ | sqrt _ => f ≠ .e251_9
  | _ => True

theorem Op.fits_bounds {f : Fld} {b : Nat → Int × Int} (hb : ∀ i, -f.p ≤ (b i).1 ∧ (f = .e222_117 → 0 ≤ (b i).1))
    {o : Op} (ho : o.Fits f) (hv : o.Valid f) :
    ∃ r, o.bounds f b = some r ∧ -f.p ≤ r.1 ∧ (f = .e222_117 → 0 ≤ r.1) := by
  have hp := f.p_pos
  have hI : (2 : Int) ^ 31 ≤ f.p := by clear hb ho hv; cases f <;> decide +kernel
  have key : ∀ {r : Int × Int}, 0 ≤ r.1 → -f.p ≤ r.1 ∧ (f = .e222_117 → 0 ≤ r.1) := fun h => ⟨by linarith, fun _ => h⟩
  have hc : ∀ {i}, f ≠ .e251_9 → Ex.chainOk f (b i) = true := fun h => chainOk_of (hb _).2 h
  have hf : ∀ i, 0 ≤ (Ex.foldB f (b i)).1 := fun i => foldB_lo (hb i).1
  cases o with
  | zero => exact ⟨_, rfl, key (le_refl _)⟩
  | one => exact ⟨_, rfl, key (by decide)⟩
  | mOne => exact ⟨_, rfl, key (by dsimp only; linarith)⟩
  | modulus => exact ⟨_, rfl, key hp.le⟩
  | bytes bs =>
    exact ⟨(_, _), if_neg fun hh => absurd (hv.2.2 hh.1) (not_lt.mpr hh.2), key (Int.emod_nonneg _ (by positivity))⟩
  | rand _ => exact ⟨_, rfl, key (le_refl _)⟩
  | add i j => exact ⟨_, rfl, key (add_nonneg (hf i) (hf j))⟩
  | sub i j => exact ho.elim
  | mul i j =>
    exact ⟨_, if_pos (mulOk_of (fun h => ⟨(hb i).2 h, (hb j).2 h⟩) fun h => absurd h ho), (mulB_lo f).1, (mulB_lo f).2.1⟩
  | div i j =>
    have h1 : Ex.mulOk f (b i) (Ex.sqB f) = true := mulOk_of (fun h => ⟨(hb i).2 h, (sqB_lo f).2 h⟩) fun h => absurd h ho
    exact ⟨_, if_pos (by rw [hc ho, h1]; rfl), (mulB_lo f).1, (mulB_lo f).2.1⟩
  | addI i n =>
    have h1 := hf i
    have h2 : -2 ^ 31 ≤ n := hv.1
    exact ⟨_, rfl, by dsimp only; linarith, fun h => add_nonneg h1 (ho h)⟩
  | subI i n =>
    have h1 := hf i
    have h2 : n < 2 ^ 31 := hv.2
    exact ⟨_, rfl, by dsimp only; linarith, fun h => sub_nonneg.mpr ((ho h).trans h1)⟩
  | square i => exact ⟨_, rfl, sqB_lo f⟩
  | invert i => exact ⟨_, if_pos (hc ho), sqB_lo f⟩
  | legendre i => exact ⟨_, if_pos (hc ho), sqB_lo f⟩
  | sqrt i => exact ⟨_, if_pos (hc ho), sqB_lo f⟩
  | select c i j => cases c <;> exact ⟨_, rfl, hb _⟩

theorem Client.fits_safe {f : Fld} {α : Type} (c : Client α) : ∀ {bs : List (Int × Int)}, c.Uses f (Op.Fits f) →
    (∀ i, -f.p ≤ (bs.getD i (0, 0)).1 ∧ (f = .e222_117 → 0 ≤ (bs.getD i (0, 0)).1)) → c.Safe f bs := by
  have hp := f.p_pos
  have hset : ∀ {bs : List (Int × Int)} (i : Nat),
      (∀ i, -f.p ≤ (bs.getD i (0, 0)).1 ∧ (f = .e222_117 → 0 ≤ (bs.getD i (0, 0)).1)) →
      ∀ j, -f.p ≤ ((bs.set i (0, f.p - 1)).getD j (0, 0)).1 ∧
        (f = .e222_117 → 0 ≤ ((bs.set i (0, f.p - 1)).getD j (0, 0)).1) := by
    intro bs i h j
    rw [getD_set_eq]
    split
    · exact ⟨by dsimp only; linarith, fun _ => le_refl _⟩
    · exact h j
  induction c with
  | done x => intro bs _ _; trivial
  | step o k ih =>
    intro bs hu h
    obtain ⟨r, h1, h2⟩ := Op.fits_bounds h hu.1 hu.2.1
    refine ⟨hu.2.1, r, h1, ih hu.2.2 fun i => ?_⟩
    rw [getD_snoc_eq]
    split
    · exact h2
    · exact h i
  | normalize i k ih => intro bs hu h; exact ⟨(h i).1, ih hu (hset i h)⟩
  | eq i j k ih => intro bs hu h; exact ⟨(h i).1, (h j).1, fun b => ih b (hu b) (hset j (hset i h))⟩
  | bit i idx k ih => intro bs hu h; exact ⟨hu.1, (h i).1, fun b => ih b (hu.2 b) (hset i h)⟩
  | packed i k ih =>
    intro bs hu h
    exact ⟨(h i).1, fun out h1 h2 h3 => ih out (hu out h1 h2 h3) (hset i h)⟩
  | hex u i k ih => intro bs hu h; exact ⟨(h i).1, fun s => ih s (hu s) h⟩

/-- C53, all types: no client whose instructions fit the type can tell it from `ℤ / p`, whether or not it
normalizes. -/
theorem C53_fitting_partial (f : Fld) (pr : Profile) {α : Type} (c : Client α) (hc : c.Uses f (Op.Fits f)) :
    c.run f pr false [] = .ok (c.ideal f []) :=
  C53_analysed_partial f pr c (Client.fits_safe c hc fun i => by
    have := f.p_pos
    rw [List.getD_nil]
    exact ⟨by dsimp only; linarith, fun _ => le_refl _⟩)

theorem Op.NotSub.fits {f : Fld} (hf : f ≠ .e222_117 ∧ f ≠ .e251_9) {o : Op} (h : o.NotSub) : o.Fits f := by
  cases o <;> first | trivial | exact h.elim | exact hf.2 | exact fun h => absurd h hf.1

theorem Client.Uses.mono {f : Fld} {P Q : Op → Prop} (hPQ : ∀ o, P o → Q o) {α : Type} {c : Client α}
    (h : c.Uses f P) : c.Uses f Q := by
  induction c with
  | done _ => trivial
  | step o k ih => exact ⟨hPQ _ h.1, h.2.1, ih h.2.2⟩
  | normalize i k ih => exact ih h
  | eq i j k ih => exact fun b => ih b (h b)
  | bit i idx k ih => exact ⟨h.1, fun b => ih b (h.2 b)⟩
  | packed i k ih => exact fun out h1 h2 h3 => ih out (h out h1 h2 h3)
  | hex u i k ih => exact fun s => ih s (h s)

/-! ### Examples -/

/-- Unpacks `x` and `y` and returns the bytes of `(x - y) * x`, normalizing `y` and the difference. -/
def subClient (x y : List Int) : Client (List Int) :=
  .step (.bytes x) <| .step (.bytes y) <| .normalize 1 <| .step (.sub 0 1) <| .normalize 2 <| .step (.mul 2 0) <|
    .packed 3 .done

/-- It meets the hypothesis of `C53_analysed_partial` in all nine types. -/
theorem subClient_safe (f : Fld) {x y : List Int} (hx : Op.Valid f (.bytes x)) (hy : Op.Valid f (.bytes y)) :
    (subClient x y).Safe f [] := by
  have hp := f.p_pos
  have h0 := Int.emod_nonneg (leVal (x.take f.nbytes)) (b := 2 ^ f.n) (by positivity)
  have h1 := Int.emod_lt_of_pos (leVal (x.take f.nbytes)) (b := 2 ^ f.n) (by positivity)
  have h2 := Int.emod_nonneg (leVal (y.take f.nbytes)) (b := 2 ^ f.n) (by positivity)
  have h3 := p_lt_two_pow f
  have hb : ∀ {v : List Int} {b : Nat → Int × Int}, Op.Valid f (.bytes v) → Op.bounds f b (.bytes v) =
      some (leVal (v.take f.nbytes) % 2 ^ f.n, leVal (v.take f.nbytes) % 2 ^ f.n) :=
    fun hv => if_neg fun hh => absurd (hv.2.2 hh.1) (not_lt.mpr hh.2)
  refine ⟨hx, _, hb hx, hy, _, hb hy, ?_⟩
  generalize leVal (x.take f.nbytes) % 2 ^ f.n = u at *
  generalize leVal (y.take f.nbytes) % 2 ^ f.n = v at *
  have h4 : 0 ≤ (Ex.foldB f (u, u)).1 := foldB_lo (by dsimp only; linarith)
  refine ⟨(by linarith : -f.p ≤ v), trivial, ((Ex.foldB f (u, u)).1 - (f.p - 1), (Ex.foldB f (u, u)).2 - 0), ?_, ?_⟩
  · exact if_pos ⟨le_refl _, (by linarith : f.p - 1 < 2 ^ f.n)⟩
  refine ⟨(by linarith : -f.p ≤ (Ex.foldB f (u, u)).1 - (f.p - 1)), trivial, Ex.mulB f, ?_, (mulB_lo f).1,
    fun _ _ _ _ => trivial⟩
  have h5 : Ex.mulOk f (0, f.p - 1) (u, u) = true := by
    refine mulOk_of (fun _ => ⟨le_refl _, h0⟩) fun hf => ?_
    have h5 : (2 : Int) ^ f.n = 2 ^ 251 := by rw [hf]; rfl
    rw [h5] at h1 h3
    exact ⟨le_refl _, h0, mul_small (x := f.p - 1) (by linarith) h0 (h1.le.trans (by decide +kernel))⟩
  exact if_pos h5

/-- So, in all nine types and for all byte strings, it returns the bytes of `(x - y) * x` in `ℤ / p`. -/
example (f : Fld) (pr : Profile) {x y : List Int} (hx : Op.Valid f (.bytes x)) (hy : Op.Valid f (.bytes y)) :
    (subClient x y).run f pr false [] = .ok (leBytes f.nbytes
      ((((leVal (x.take f.nbytes) % 2 ^ f.n : Int) : ZMod f.pN) - (leVal (y.take f.nbytes) % 2 ^ f.n : Int)) *
        (leVal (x.take f.nbytes) % 2 ^ f.n : Int)).val) :=
  C53_analysed_partial f pr _ (subClient_safe f hx hy)

/-- The loop of `countClient` fits all nine types, whatever the number of turns. -/
theorem countClient_fits (f : Fld) (n i : Nat) : (countClient n i).Uses f (Op.Fits f) := by
  induction n generalizing i with
  | zero => trivial
  | succ n ih =>
    refine ⟨by cases f <;> decide, fun b => ?_⟩
    cases b
    · exact ⟨trivial, trivial, ih _⟩
    · trivial

/-- The analysis rejects `lazyClient` in `Mod_e222_117` (rightly, by `C53_statement_false`). -/
example : ¬ lazyClient.Safe .e222_117 [] := by
  rintro ⟨-, _, h1, -, _, h2, -, _, h3, -, _, h4, -⟩
  cases h1; cases h2; cases h3
  exact absurd h4 (by rw [show Op.bounds .e222_117 _ _ = none by decide +kernel]; nofun)

end Verif
