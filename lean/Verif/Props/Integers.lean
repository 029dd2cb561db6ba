import Verif.Field.ChainInt
import Verif.Props.PointClients

/-!
# C64: exactly what every program gets

C53, C59 and C62 compare programs that use the code with the same programs over `ℤ / p`, and hold
where the code is right.  Here they are compared with the same programs over the integers, every
operation replaced by what it really does to the integer that the words stand for, as an explicit
formula.  This holds for all nine types and all programs, right or wrong, and says when they
panic.
-/

namespace Verif
open Fld FieldCode Rust

/-! ### The machine on integers -/

section
variable (f : Fld)

/-- The integer of the words that `rand` puts together. -/
def Fld.randInt (rng : Nat → Int → Int) : Int :=
  ∑ i ∈ Finset.range f.k, rng i (f.p / 2 ^ (f.L * i) % 2 ^ f.L) * 2 ^ (f.L * i)

/-- An instruction on integers; `none` is a panic. -/
def Op.int (xs : List Int) (o : Op) : Option Int :=
  let x := fun i => xs.getD i 0
  match o with
  | zero => some 0
  | one => some 1
  | mOne => some (f.p - 1)
  | modulus => some f.p
  | bytes bs => if f.nbytes ≤ bs.length then some (leVal (bs.take f.nbytes) % 2 ^ f.ubits) else none
  | rand rng => some (f.randInt rng)
  | add i j => some (f.plus (x i) (x j))
  | sub i j => some (f.minus (x i) (x j))
  | mul i j => some (f.times (x i) (x j))
  | div i j => some (f.times (x i) (f.invInt (x j)))
  | addI i n => some (x i + n - f.p * (x i / 2 ^ f.n))
  | subI i n => some (x i - n - f.p * (x i / 2 ^ f.n))
  | square i => some (f.sq (x i))
  | invert i => some (f.invInt (x i))
  | legendre i => some (f.legInt (x i))
  | sqrt i => some (f.sqrtInt (x i))
  | select b i j => some (if b then x i else x j)

/-- A client on integers; `none` is a panic. -/
def Client.int {α : Type} : Client α → List Int → Option α
  | done x, _ => some x
  | step o k, xs => (o.int f xs).bind fun x => k.int (xs ++ [x])
  | normalize i k, xs => k.int (xs.set i (f.normVal (xs.getD i 0)))
  | eq i j k, xs =>
    let x := f.normVal (xs.getD i 0)
    let y := f.normVal (xs.getD j 0)
    (k (decide (x = y))).int ((xs.set i x).set j y)
  | bit i idx k, xs =>
    let x := f.normVal (xs.getD i 0)
    if idx < f.L * f.k then (k (decide (x / 2 ^ idx % 2 = 1))).int (xs.set i x) else none
  | packed i k, xs =>
    let x := f.normVal (xs.getD i 0)
    (k (leBytes f.nbytes (x % 2 ^ f.ubits).toNat)).int (xs.set i x)
  | hex upper i k, xs =>
    (k (hexDigits upper f.nbytes (f.normVal (xs.getD i 0) % 2 ^ f.ubits).toNat)).int xs

/-- The arguments have the Rust types: bytes, `i32`, and a generator that answers in range. -/
def Op.Args : Op → Prop
  | bytes bs => IsBytes bs
  | rand rng => IsRng rng
  | addI _ n | subI _ n => IsI32 n
  | _ => True

/-- All arguments of the instructions the client can come to have the Rust types. -/
def Client.Args {α : Type} : Client α → Prop
  | done _ => True
  | step o k => o.Args ∧ k.Args
  | normalize _ k => k.Args
  | eq _ _ k => ∀ b, (k b).Args
  | bit _ _ k => ∀ b, (k b).Args
  | packed _ k => ∀ out, out.length = f.nbytes → IsBytes out → (k out).Args
  | hex _ _ k => ∀ s, (k s).Args

end

/-- The result of a run: a value, or a panic for `none`. -/
def Gives {α : Type} (x : Res α) : Option α → Prop
  | some v => x = .ok v
  | none => ∃ e, x = .error e

/-! ### Proofs -/

section
variable {f : Fld} {pr : Profile}

theorem digitsVal_range (L k : Nat) (g : Nat → Int) :
    digitsVal L ((List.range k).map g) = ∑ i ∈ Finset.range k, g i * 2 ^ (L * i) := by
  induction k generalizing g with
  | zero => rfl
  | succ k ih =>
    rw [List.range_succ_eq_map, List.map_cons, List.map_map, digitsVal, ih, Finset.sum_range_succ',
      Finset.mul_sum]
    simp only [Function.comp_apply, Nat.mul_zero, pow_zero, mul_one]
    rw [add_comm]
    congr 1
    refine Finset.sum_congr rfl fun i _ => ?_
    rw [Nat.mul_succ, pow_add]
    ring

theorem modulus_words (f : Fld) (i : Nat) (hi : i < f.k) :
    f.code.MODULUS.getD i 0 = f.p / 2 ^ (f.L * i) % 2 ^ f.L := by
  revert i
  cases f <;> decide +kernel

theorem rand_value (rng : Nat → Int → Int) : f.V (f.code.rand rng) = f.randInt rng := by
  rw [V, FieldCode.rand, limbs_eq, digitsVal_range, randInt]
  refine Finset.sum_congr rfl fun i hi => ?_
  rw [modulus_words f i (Finset.mem_range.1 hi)]

theorem getD_int (rs : List Elem) (i : Nat) : (rs.map f.V).getD i 0 = f.V (rs.getD i f.code.ZERO) := by
  rw [List.getD_eq_getElem?_getD, List.getD_eq_getElem?_getD, List.getElem?_map]
  cases rs[i]? with
  | some a => rfl
  | none => exact (zero_canon f).2.1.symm

theorem getD_tight {rs : List Elem} (hrs : ∀ a ∈ rs, f.Tight a) (i : Nat) :
    f.Tight (rs.getD i f.code.ZERO) := getD_mem hrs i (zero_canon f).tight

/-- An instruction does on words what it does on integers. -/
theorem Op.int_sound {rs : List Elem} (hrs : ∀ a ∈ rs, f.Tight a) {o : Op} (ho : o.Args) :
    match o.int f (rs.map f.V) with
    | some v => ∃ a, o.exec f pr rs = .ok a ∧ f.Tight a ∧ f.V a = v
    | none => ∃ e, o.exec f pr rs = .error e := by
  have t := getD_tight hrs
  cases o with
  | zero => exact ⟨_, rfl, (zero_canon f).tight, (zero_canon f).2.1⟩
  | one => exact ⟨_, rfl, (one_canon f).tight, (one_canon f).2.1⟩
  | mOne => exact ⟨_, rfl, (m_one_canon f).tight, (m_one_canon f).2.1⟩
  | modulus => exact ⟨_, rfl, word_tight (modulus_shape f), modulus_V f⟩
  | bytes bs =>
    have hw := Rep.isWords (Tight.rep (zero_canon f).tight)
    simp only [Op.int]
    by_cases hl : f.nbytes ≤ bs.length
    · rw [if_pos hl]
      obtain ⟨r, h1, h2⟩ := unpacked_tight f pr ho hl
      obtain ⟨s, h3, -, h4⟩ := unpack_exact pr hw ho hl
      cases Except.ok.inj (h1.symm.trans h3)
      exact ⟨r, h1, h2, h4⟩
    · rw [if_neg hl]
      exact unpack_short pr hw (not_le.1 hl)
  | rand rng => exact ⟨_, rfl, (C24_rand_canonical f ho).tight, rand_value rng⟩
  | add i j =>
    simp only [Op.int, getD_int]
    obtain ⟨r, h1, -⟩ := C01_add f pr (t i).rep (t j).rep
    exact ⟨r, h1, add_int (t i) (t j) h1⟩
  | sub i j =>
    simp only [Op.int, getD_int]
    obtain ⟨r, h1, -⟩ := C02_sub_correct_iff f pr (t i).rep (t j).rep
    exact ⟨r, h1, sub_int (t i) (t j) h1⟩
  | mul i j =>
    simp only [Op.int, getD_int]
    obtain ⟨r, h1, h2⟩ := mul_value pr (t i).loose (t j).loose
    exact ⟨r, h1, h2⟩
  | div i j =>
    simp only [Op.int, getD_int]
    obtain ⟨v, h1, h2⟩ := invert_tight f pr (t j)
    obtain ⟨r, h3, h4, h5⟩ := mul_value pr (t i).loose h2.loose
    refine ⟨r, ?_, h4, ?_⟩
    · simp only [Op.exec, FieldCode.div, divAssign, h1, bind, Except.bind]
      exact h3
    · rw [h5, (run_int noQuartic_follows (t j) h1).2]; rfl
  | addI i n =>
    simp only [Op.int, getD_int]
    obtain ⟨r, h1, h2, -⟩ := C06_small_add f pr (t i).rep ho
    obtain ⟨s, h3, -, h4⟩ := smallAdd_exact pr (t i).rep ho
    cases Except.ok.inj (h1.symm.trans h3)
    exact ⟨r, h1, h2, h4⟩
  | subI i n =>
    simp only [Op.int, getD_int]
    obtain ⟨r, h1, h2, -⟩ := C06_small_sub f pr (t i).rep ho
    obtain ⟨s, h3, -, h4⟩ := smallSub_exact pr (t i).rep ho
    cases Except.ok.inj (h1.symm.trans h3)
    exact ⟨r, h1, h2, h4⟩
  | square i =>
    simp only [Op.int, getD_int]
    obtain ⟨r, h1, h2⟩ := square_value pr (t i).loose
    exact ⟨r, h1, h2⟩
  | invert i =>
    simp only [Op.int, getD_int]
    obtain ⟨r, h1, -⟩ := invert_tight f pr (t i)
    exact ⟨r, h1, run_int noQuartic_follows (t i) h1⟩
  | legendre i =>
    simp only [Op.int, getD_int]
    obtain ⟨r, h1, -⟩ := legendre_tight f pr (t i)
    exact ⟨r, h1, run_int noQuartic_follows (t i) h1⟩
  | sqrt i =>
    simp only [Op.int, getD_int]
    obtain ⟨r, h1, -⟩ := sqrt_tight f pr (t i)
    exact ⟨r, h1, run_int quartic_follows (t i) h1⟩
  | select b i j =>
    simp only [Op.int, getD_int, Op.exec, C21_select f b (t i).rep.isWords (t j).rep.isWords]
    cases b
    · exact ⟨_, rfl, t j, rfl⟩
    · exact ⟨_, rfl, t i, rfl⟩

theorem map_set_int (rs : List Elem) (i : Nat) (x : Elem) :
    (rs.map f.V).set i (f.V x) = (rs.set i x).map f.V := List.map_set.symm

theorem Client.int_sound {α : Type} (c : Client α) : ∀ {rs : List Elem}, c.Args f →
    (∀ a ∈ rs, f.Tight a) → Gives (c.run f pr false rs) (c.int f (rs.map f.V)) := by
  induction c with
  | done x => intro rs _ _; rfl
  | step o k ih =>
    intro rs hu h
    have h1 := Op.int_sound (pr := pr) h hu.1
    rw [Client.int]
    cases ho : o.int f (rs.map f.V) with
    | none =>
      rw [ho] at h1
      obtain ⟨e, h1⟩ := h1
      refine ⟨e, ?_⟩
      rw [Client.run, h1]; rfl
    | some v =>
      rw [ho] at h1
      obtain ⟨a, h1, h2, h3⟩ := h1
      rw [Client.run, h1]
      have := ih hu.2 (rs := rs ++ [a]) (by
        intro b hb
        rcases List.mem_append.1 hb with hb | hb
        · exact h b hb
        · rw [List.mem_singleton.1 hb]; exact h2)
      rw [List.map_append, List.map_singleton, h3] at this
      exact this
  | normalize i k ih =>
    intro rs hu h
    have t := getD_tight h i
    obtain ⟨r, h1, h2, h3⟩ := C09_normalize_value f pr t.rep
    rw [Client.run, Client.int, getD_int, h1, ← h3, map_set_int]
    exact ih hu (set_mem h i h2)
  | eq i j k ih =>
    intro rs hu h
    have ti := getD_tight h i
    have tj := getD_tight h j
    obtain ⟨x, h1, h2, h3⟩ := C09_normalize_value f pr ti.rep
    obtain ⟨y, h4, h5, h6⟩ := C09_normalize_value f pr tj.rep
    obtain ⟨x', y', b, h7, h8⟩ := C10_normalize_eq_exact f pr ti.rep tj.rep
    have h9 := h7
    simp only [FieldCode.normalizeEq, FieldCode.normalizeSelfEq, h1, h4, bind, Except.bind, pure,
      Except.pure] at h9
    obtain ⟨rfl, h10⟩ := Prod.mk.inj (Except.ok.inj h9)
    obtain ⟨rfl, -⟩ := Prod.mk.inj h10
    have hb : b = decide (f.normVal (f.V (rs.getD i f.code.ZERO)) =
        f.normVal (f.V (rs.getD j f.code.ZERO))) := by
      rw [Bool.eq_iff_iff, h8, decide_eq_true_eq]
    rw [Client.run, Client.int, h7]
    simp only [getD_int]
    rw [← hb, ← h3, ← h6, map_set_int, map_set_int]
    exact ih b (hu b) (set_mem (set_mem h i h2) j h5)
  | bit i idx k ih =>
    intro rs hu h
    have t := getD_tight h i
    obtain ⟨x, h1, h2, h3⟩ := C09_normalize_value f pr t.rep
    rw [Client.run, Client.int]
    simp only [getD_int]
    by_cases hi : idx < f.L * f.k
    · rw [if_pos hi]
      obtain ⟨x', h4⟩ := C20_bit_exact f pr t.rep hi
      have h5 := h4
      rw [FieldCode.bit, h1] at h5
      simp only [ok_bind] at h5
      obtain ⟨b, -, h6⟩ := Chn.bind_eq_ok h5
      obtain ⟨rfl, -⟩ := Prod.mk.inj (Except.ok.inj h6)
      rw [h4, ← h3, map_set_int]
      exact ih _ (hu _) (set_mem h i h2)
    · rw [if_neg hi]
      have hL : 0 < f.L := by cases f <;> decide
      have hl : x.length ≤ idx / f.L := by
        rw [Shape.length h2, Nat.le_div_iff_mul_le hL, mul_comm]
        omega
      refine ⟨.index, ?_⟩
      simp only [FieldCode.bit, h1, FieldCode.bitNormalized, limbBits_eq, List.getElem?_eq_none hl, bind,
        Except.bind]
  | packed i k ih =>
    intro rs hu h
    have t := getD_tight h i
    obtain ⟨x, h1, h2, h3⟩ := C09_normalize_value f pr t.rep
    obtain ⟨x', out, h4, h5, h6, h7, h8⟩ := packed_value f pr t.rep
    obtain rfl := Except.ok.inj (h1.symm.trans h5)
    rw [Client.run, Client.int, h4]
    simp only [getD_int]
    have e := eq_leBytes h7 (v := (f.normVal (f.V (rs.getD i f.code.ZERO)) % 2 ^ f.ubits).toNat) (by
      rw [h8]; exact (Int.toNat_of_nonneg (Int.emod_nonneg _ (by positivity))).symm)
    rw [h6] at e
    rw [← e, ← h3, map_set_int]
    exact ih out (hu out h6 h7) (set_mem h i h2)
  | hex upper i k ih =>
    intro rs hu h
    have t := getD_tight h i
    obtain ⟨x', out, h4, h5, h6, h7, h8⟩ := packed_value f pr t.rep
    have e := eq_leBytes h7 (v := (f.normVal (f.V (rs.getD i f.code.ZERO)) % 2 ^ f.ubits).toNat) (by
      rw [h8]; exact (Int.toNat_of_nonneg (Int.emod_nonneg _ (by positivity))).symm)
    rw [h6] at e
    have hs : f.code.fmtHex pr upper (rs.getD i f.code.ZERO) =
        .ok (hexDigits upper f.nbytes (f.normVal (f.V (rs.getD i f.code.ZERO)) % 2 ^ f.ubits).toNat) := by
      rw [FieldCode.fmtHex, h4, ← hex_leBytes, ← e]
      rfl
    rw [Client.run, Client.int, hs]
    simp only [getD_int]
    exact ih _ (hu _) h

end

/-! ### C64 -/

/-- C64: for all nine types, all builds and all clients whose arguments have the Rust types, the client gets exactly what it
gets from the machine on integers, and panics exactly when that one does. -/
theorem C64_client (f : Fld) (pr : Profile) {α : Type} (c : Client α) (hc : c.Args f) {rs : List Elem}
    (h : ∀ a ∈ rs, f.Tight a) : Gives (c.run f pr false rs) (c.int f (rs.map f.V)) :=
  c.int_sound hc h

/-- C64 for the text of the field files. -/
theorem C64_text (f : Fld) {α : Type} (c : Client α) (hc : c.Args f) :
    match c.int f [] with
    | some x => ∀ w, c.text (src f) w 12 f false = .ok x
    | none => ∀ w, ∃ e, c.text (src f) w 12 f false = .error (.panic e) := by
  have h := fun w : World => C64_client f w.pr c hc (rs := []) nofun
  rw [List.map_nil] at h
  cases hx : c.int f [] with
  | some x =>
    intro w
    have := h w
    rw [hx] at this
    rw [C59_client_model (has_src f) w (Nat.le_refl 12), show c.run f w.pr false [] = .ok x from this]
    rfl
  | none =>
    intro w
    have := h w
    rw [hx] at this
    obtain ⟨e, this⟩ := this
    exact ⟨e, by rw [C59_client_model (has_src f) w (Nat.le_refl 12), this]; rfl⟩

/-- C64: a client is answered as over `ℤ / p` if and only if the machine on integers answers so. -/
theorem C64_right_iff (f : Fld) (pr : Profile) {α : Type} (c : Client α) (hc : c.Args f) :
    c.run f pr false [] = .ok (c.ideal f []) ↔ c.int f [] = some (c.ideal f []) := by
  have h := C64_client f pr c hc (rs := []) nofun
  rw [List.map_nil] at h
  cases hx : c.int f [] with
  | some x =>
    rw [hx] at h
    rw [show c.run f pr false [] = .ok x from h]
    exact ⟨fun e => congrArg some (Except.ok.inj e), fun e => congrArg Except.ok (Option.some.inj e)⟩
  | none =>
    rw [hx] at h
    obtain ⟨e, h⟩ := h
    rw [h]
    exact ⟨nofun, nofun⟩

/-- C64: no build differs from another in what it answers or in whether it panics. -/
theorem C64_builds (f : Fld) (pr pr' : Profile) {α : Type} (c : Client α) (hc : c.Args f) (x : α) :
    c.run f pr false [] = .ok x ↔ c.run f pr' false [] = .ok x := by
  have key : ∀ pr, c.run f pr false [] = .ok x ↔ c.int f [] = some x := by
    intro pr
    have h := C64_client f pr c hc (rs := []) nofun
    rw [List.map_nil] at h
    cases hx : c.int f [] with
    | some y =>
      rw [hx] at h
      rw [show c.run f pr false [] = .ok y from h]
      exact ⟨fun e => congrArg some (Except.ok.inj e), fun e => congrArg Except.ok (Option.some.inj e)⟩
    | none =>
      rw [hx] at h
      obtain ⟨e, h⟩ := h
      rw [h]
      exact ⟨nofun, nofun⟩
  rw [key pr, key pr']

theorem Client.Typed.args {f : Fld} {P : Op → Prop} {α : Type} {k : Client α} (h : k.Typed f P) : k.Args f := by
  induction k with
  | done => trivial
  | step o k ih =>
    refine ⟨?_, ih h.2.2⟩
    have := h.2.1
    cases o <;> first | trivial | exact this | exact this.1
  | normalize _ k ih => exact ih h
  | eq _ _ k ih => exact fun b => ih b (h b)
  | bit _ _ k ih => exact fun b => ih b (h.2 b)
  | packed _ k ih => exact fun out h1 h2 => ih out (h out h1 h2)
  | hex _ _ k ih => exact fun s => ih s (h s)

/-- C64 for the text of a curve with its field: what a client that also uses points, with byte strings that are long enough and bit
indices inside the words, gets in all builds. -/
theorem C64_curve (c : Crv) {P : Op → Prop} {α : Type} (k : CClient α) (hk : k.erase.Typed c.fld P) :
    ∃ x, k.erase.int c.fld [] = some x ∧
      ∀ w : World, w.curve = crvId c → k.text (crvProg c) w 12 c.fld = .ok x := by
  obtain ⟨x, h⟩ := C62_never_panics c k hk
  have h1 := C64_client c.fld .debug k.erase hk.args (rs := []) nofun
  obtain ⟨y, h2⟩ := C62_elements c.fld k.erase hk (rs := []) nofun
  rw [List.map_nil] at h1
  have h3 := h (crvWorld c .debug) rfl
  rw [C62_points_unseen c k hk rfl, C59_client_model (has_src _) _ (Nat.le_refl 12), h2] at h3
  obtain rfl : y = x := Except.ok.inj h3
  refine ⟨y, ?_, h⟩
  rw [h2] at h1
  cases hx : k.erase.int c.fld [] with
  | some z => rw [hx] at h1; rw [Except.ok.inj h1]
  | none =>
    rw [hx] at h1
    obtain ⟨e, h1⟩ := h1
    cases h1

/-! ### Examples -/

/-- `lazyClient` of C53 gets its wrong answer from the machine on integers too. -/
example : lazyClient.Args .e222_117 ∧ lazyClient.int .e222_117 [] = some false ∧ lazyClient.ideal .e222_117 [] = true :=
  ⟨by simp [lazyClient, Client.Args, Op.Args, IsI32], by decide +kernel, by simp [lazyClient, Client.ideal, Op.ideal]⟩

/-- So do all builds, by C64. -/
example (w : World) : lazyClient.text (src .e222_117) w 12 .e222_117 false = .ok false := by
  have h := C64_text .e222_117 lazyClient (by simp [lazyClient, Client.Args, Op.Args, IsI32])
  rw [show lazyClient.int .e222_117 [] = some false by decide +kernel] at h
  exact h w

/-- Takes the inverse of bytes and asks for bit 3, then for one outside the words. -/
def outside (bs : List Int) (idx : Nat) : Client Bool :=
  .step (.bytes bs) <| .step (.invert 0) <| .bit 1 3 fun _ => .bit 1 idx .done

/-- In all nine types it panics, in all builds. -/
example (f : Fld) (w : World) :
    ∃ e, (outside (List.replicate 66 7) 700).text (src f) w 12 f false = .error (.panic e) := by
  have h := C64_text f (outside (List.replicate 66 7) 700)
    ⟨by simp [Op.Args, IsBytes], trivial, fun _ _ => trivial⟩
  rw [show (outside (List.replicate 66 7) 700).int f [] = none by cases f <;> decide +kernel] at h
  exact h w

/-- So does a client with too few bytes. -/
example (f : Fld) (w : World) :
    ∃ e, (outside (List.replicate 27 7) 5).text (src f) w 12 f false = .error (.panic e) := by
  have h := C64_text f (outside (List.replicate 27 7) 5)
    ⟨by simp [Op.Args, IsBytes], trivial, fun _ _ => trivial⟩
  rw [show (outside (List.replicate 27 7) 5).int f [] = none by cases f <;> decide +kernel] at h
  exact h w

end Verif
