import Verif.Field.Normalize
import Verif.Check.Frame

/-!
# Packing and unpacking: exact results (helper lemmas)
-/

namespace Verif
open Check

/-- Intervals of `n` bytes. -/
def byteR (n : Nat) : List (Int × Int) := List.replicate n (0, 255)

theorem IsBytes.inRs {bs : List Int} (h : IsBytes bs) : InRs (byteR bs.length) bs :=
  Fld.inRs_replicate _ _ fun x hx => by have := h x hx; constructor <;> simp <;> omega

theorem IsBytes.take {bs : List Int} (h : IsBytes bs) (n : Nat) : IsBytes (bs.take n) :=
  fun x hx => h x (List.mem_of_mem_take hx)

theorem leVal_nonneg {bs : List Int} (h : IsBytes bs) : 0 ≤ leVal bs :=
  digitsVal_nonneg 8 bs fun x hx => by have := h x hx; norm_num; exact this

theorem leVal_lt {bs : List Int} (h : IsBytes bs) : leVal bs < 2 ^ (8 * bs.length) :=
  digitsVal_lt 8 bs fun x hx => by have := h x hx; norm_num; exact this

theorem leVal_inj {as bs : List Int} (ha : IsBytes as) (hb : IsBytes bs)
    (hl : as.length = bs.length) (hv : leVal as = leVal bs) : as = bs :=
  digitsVal_inj 8 as bs (fun x hx => by have := ha x hx; norm_num; exact this)
    (fun x hx => by have := hb x hx; norm_num; exact this) hl hv

/-- The bits of the top byte above bit `j` are the bits of the number. -/
theorem leVal_top {bs : List Int} {m j : Nat} (h : IsBytes bs) (hl : bs.length = m + 1) :
    (bs[m]?.getD 0) / 2 ^ j = leVal bs / 2 ^ (8 * m + j) := by
  have e : bs = bs.take m ++ [bs[m]'(by omega)] := by
    conv_lhs => rw [← List.take_append_drop m bs]
    rw [List.drop_eq_getElem_cons (by omega), List.drop_of_length_le (by omega)]
  have hlt := leVal_lt (h.take m)
  have hnn := leVal_nonneg (h.take m)
  have hlen : (bs.take m).length = m := by simp; omega
  rw [hlen] at hlt
  have hv : leVal bs = leVal (bs.take m) + 2 ^ (8 * m) * bs[m] := by
    conv_lhs => rw [e]
    simp only [leVal, digitsVal_append, digitsVal, hlen, mul_zero, add_zero]
  rw [hv, Fld.div_shape hnn hlt, List.getElem?_eq_getElem (by omega), Option.getD_some]

namespace Fld
variable {f : Fld}

/-- Number of bits of the byte string that `unpack` uses: all 384 of them in
`e383_187`, `n` in the other modules. -/
def ubits (f : Fld) : Nat :=
  match f with
  | e383_187 => 384
  | _ => f.n

def unpackTop (f : Fld) : EForm :=
  match f with
  | e383_187 => []
  | _ => [(16 + (f.nbytes - 1), .fl (f.n - 8 * (f.nbytes - 1)), -p2 f.n)]

def unpackCheck (f : Fld) : Bool :=
  check 0 0 0 f.code.unpackP
    (rng 0 (List.replicate f.k (-9223372036854775808, 9223372036854775807)) ++
      rng 16 (byteR f.nbytes))
    (vform f.L 0 f.k 1) (vform 8 16 f.nbytes 1 ++ f.unpackTop)
    (rng 0 (f.shapeR 0 (p2 (f.ubits - f.L * (f.k - 1)) - 1)))

/-- The bits of the top word that `pack_normalized` does not write. -/
def packTop (f : Fld) : EForm :=
  [(f.k - 1, .fl (f.ubits - f.L * (f.k - 1)), -p2 f.ubits)]

/-- `pack_normalized` on any representation. -/
def packCheck (f : Fld) : Bool :=
  check 0 0 0 f.code.packP (rng 0 f.repR ++ rng 16 (byteR f.nbytes))
    (vform 8 16 f.nbytes 1) (vform f.L 0 f.k 1 ++ f.packTop) (rng 16 (byteR f.nbytes))

/-- `unpack` reads the last byte, `pack` writes it. -/
def needsCheck (f : Fld) : Bool :=
  let s := 16 + (f.nbytes - 1)
  (f.code.unpackP.all fun st => !creates s st) && f.code.unpackP.any (needs s) &&
  (f.code.packP.all fun st => !creates s st) && f.code.packP.any (needs s)

/-- Slot of a statement. -/
def stmtSlot : Stmt → Nat
  | .bind t _ => t
  | .store t _ => t

/-- `pack` assigns only the first `nbytes` bytes. -/
def packFrame (f : Fld) : Bool :=
  f.code.packP.all fun st => Nat.ble 16 (stmtSlot st) && Nat.blt (stmtSlot st) (16 + f.nbytes)

set_option maxRecDepth 100000 in
theorem unpackCheck_ok (f : Fld) : f.unpackCheck = true := by cases f <;> decide +kernel

set_option maxRecDepth 100000 in
theorem packCheck_ok (f : Fld) : f.packCheck = true := by cases f <;> decide +kernel

set_option maxRecDepth 100000 in
theorem needsCheck_ok (f : Fld) : f.needsCheck = true := by cases f <;> decide +kernel

set_option maxRecDepth 100000 in
theorem packFrame_ok (f : Fld) : f.packFrame = true := by cases f <;> decide +kernel

theorem nbytes_pos (f : Fld) : f.nbytes - 1 + 1 = f.nbytes := by cases f <;> rfl
theorem n_le (f : Fld) : 8 * (f.nbytes - 1) ≤ f.n := by cases f <;> decide
theorem n_le' (f : Fld) : f.n ≤ 8 * f.nbytes := by cases f <;> decide

theorem IsWords.inRs {a : Elem} (h : f.IsWords a) :
    InRs (List.replicate f.k (-9223372036854775808, 9223372036854775807)) a := by
  rw [← h.1]
  refine inRs_replicate _ _ fun x hx => ?_
  have := h.2 x hx
  norm_num at this; exact this

theorem Rep.isWords {a : Elem} (h : f.Rep a) : f.IsWords a := by
  refine ⟨Shape.length h, ?_⟩
  obtain ⟨low, top, rfl, hl, hd, h1, h2⟩ := h
  intro x hx
  rcases List.mem_append.mp hx with hx | hx
  · have := hd x hx
    have hL : (2 : Int) ^ f.L ≤ 2 ^ 62 :=
      pow_le_pow_right₀ (by norm_num) (by cases f <;> decide)
    norm_num at *; constructor <;> linarith
  · simp only [List.mem_singleton] at hx
    subst hx; exact ⟨h1, h2⟩

/-- Intervals for a slice argument of at least the checked length. -/
theorem slice_ranges {a bytes : List Int} {ra : List (Int × Int)} {n : Nat} (ha : InRs ra a)
    (la : a.length ≤ 16) (hb : IsBytes bytes) (hl : n ≤ bytes.length) (hn : n ≤ 112) :
    ∀ x ∈ rng 0 ra ++ rng 16 (byteR n),
      ∃ v, (initEnv a bytes).get x.1 = some v ∧ x.2.1 ≤ v ∧ v ≤ x.2.2 := by
  intro x hx
  rw [List.mem_append] at hx
  rcases hx with hx | hx
  · exact rng_of_get ra a 0 ha
      (fun i hi => by rw [Nat.zero_add]; exact get_initEnv_self a bytes la i hi) x hx
  · have h1 : InRs (byteR n) (bytes.take n) := by
      have := (hb.take n).inRs
      rwa [List.length_take_of_le hl] at this
    refine rng_of_get _ (bytes.take n) 16 h1 (fun i hi => ?_) x hx
    rw [List.length_take_of_le hl] at hi
    rw [get_initEnv_take, get_initEnv_arg a _ (by simp) i (by simp; omega),
      List.getElem?_take_of_lt hi, List.getElem?_take_of_lt (by omega)]

theorem get_slice {a bytes : List Int} {n : Nat} (hl : n ≤ bytes.length) (hn : n ≤ 112) (i : Nat)
    (hi : i < n) : (initEnv a bytes).get (16 + i) = bytes[i]? := by
  rw [get_initEnv_take, get_initEnv_arg a _ (by simp) i (by simp; omega),
    List.getElem?_take_of_lt (by omega)]

theorem readSlots_slice {a bytes : List Int} {n : Nat} (hl : n ≤ bytes.length) (hn : n ≤ 112) :
    readSlots (initEnv a bytes) 16 n = bytes.take n := by
  have := readSlots_eq (ρ := initEnv a bytes) (bytes.take n) 16 (fun i hi => by
    rw [List.length_take_of_le hl] at hi
    rw [get_slice hl hn i hi, List.getElem?_take_of_lt hi])
  rwa [List.length_take_of_le hl] at this

set_option exponentiation.threshold 600 in
theorem unpack_exact (pr : Profile) {a : Elem} {bytes : List Int} (ha : f.IsWords a)
    (hb : IsBytes bytes) (hl : f.nbytes ≤ bytes.length) :
    ∃ r, f.code.unpack pr a bytes = .ok r ∧
      f.Shape 0 (2 ^ (f.ubits - f.L * (f.k - 1)) - 1) r ∧
      f.V r = leVal (bytes.take f.nbytes) % 2 ^ f.ubits := by
  have hn := f.nbytes_le
  obtain ⟨ρ', h1, h2, h3⟩ := check_sound (unpackCheck_ok f) pr (initEnv a bytes)
    (slice_ranges ha.inRs (by rw [ha.1]; exact f.k_le) hb hl hn)
  refine ⟨readSlots ρ' 0 f.k, ?_, ?_, ?_⟩
  · simp [FieldCode.unpack, FieldCode.runLimb, h1, limbs_eq, bind, Except.bind, pure, Except.pure]
  · have := readSlots_inRs _ _ h2
    rw [shapeR_length] at this
    rw [← p2_eq]
    exact shape_of_inRs this
  · have h3 := Int.zero_dvd.mp h3
    rw [EForm.val_append, vform_val, vform_val, one_mul, one_mul, readSlots_slice hl hn] at h3
    have hB := hb.take f.nbytes
    have hBl : (bytes.take f.nbytes).length = f.nbytes := List.length_take_of_le hl
    have htop : f.unpackTop.val 0 0 (envF (initEnv a bytes)) =
        -(2 ^ f.ubits * (leVal (bytes.take f.nbytes) / 2 ^ f.ubits)) := by
      have hgen : ∀ {m : Nat}, m + 1 = f.nbytes → 8 * m ≤ f.n →
          envF (initEnv a bytes) (16 + m) / 2 ^ (f.n - 8 * m) =
            leVal (bytes.take f.nbytes) / 2 ^ f.n := by
        intro m hm hmn
        have := leVal_top (j := f.n - 8 * m) hB (hBl.trans hm.symm)
        rw [show 8 * m + (f.n - 8 * m) = f.n by omega,
          List.getElem?_take_of_lt (by omega)] at this
        rw [← this, envF, get_slice hl hn m (by omega)]
      have hgen := hgen f.nbytes_pos f.n_le
      cases f with
      | e383_187 =>
        have hlt := leVal_lt hB
        rw [hBl] at hlt
        have : leVal (bytes.take e383_187.nbytes) / 2 ^ e383_187.ubits = 0 :=
          Int.ediv_eq_zero_of_lt (leVal_nonneg hB) hlt
        rw [this]; rfl
      | _ =>
        simp only [unpackTop, EForm.val, kv, p2_eq, hgen, ubits]
        ring
    have := Int.emod_add_mul_ediv (leVal (bytes.take f.nbytes)) (2 ^ f.ubits)
    rw [htop] at h3
    simp only [V]
    simp only [leVal] at *
    linarith

theorem unpack_short (pr : Profile) {a : Elem} {bytes : List Int} (ha : f.IsWords a)
    (hl : bytes.length < f.nbytes) : ∃ x, f.code.unpack pr a bytes = .error x := by
  have h := needsCheck_ok f
  simp only [needsCheck, Bool.and_eq_true] at h
  have hs : (initEnv a bytes).get (16 + (f.nbytes - 1)) = none := by
    have hk := f.k_le
    have := ha.1
    have hn := f.nbytes_le
    simp only [initEnv, Tree.get_setList, Tree.get_leaf, List.length_take]
    rw [if_neg (by omega), if_neg (by omega)]
  obtain ⟨x, hx⟩ := run_absent pr _ _ _ hs h.1.1.1 h.1.1.2
  exact ⟨x, by simp [FieldCode.unpack, FieldCode.runLimb, hx, bind, Except.bind]⟩

theorem packNormalized_short (pr : Profile) {a : Elem} {bytes : List Int} (ha : f.IsWords a)
    (hl : bytes.length < f.nbytes) : ∃ x, f.code.packNormalized pr a bytes = .error x := by
  have h := needsCheck_ok f
  simp only [needsCheck, Bool.and_eq_true] at h
  have hs : (initEnv a bytes).get (16 + (f.nbytes - 1)) = none := by
    have hk := f.k_le
    have := ha.1
    have hn := f.nbytes_le
    simp only [initEnv, Tree.get_setList, Tree.get_leaf, List.length_take]
    rw [if_neg (by omega), if_neg (by omega)]
  obtain ⟨x, hx⟩ := run_absent pr _ _ _ hs h.1.2 h.2
  exact ⟨x, by simp [FieldCode.packNormalized, hx, bind, Except.bind]⟩

theorem readSlots_append (ρ : Env) : ∀ (m n i : Nat),
    readSlots ρ i (m + n) = readSlots ρ i m ++ readSlots ρ (i + m) n := by
  intro m
  induction m with
  | zero => intro n i; simp [readSlots]
  | succ m ih =>
    intro n i
    rw [show m + 1 + n = (m + n) + 1 by omega]
    simp only [readSlots, ih, List.cons_append]
    rw [show i + 1 + m = i + (m + 1) by omega]

/-- `pack_normalized` of any representation writes the value modulo `2 ^ ubits`. -/
theorem packNormalized_all (pr : Profile) {a : Elem} {bytes : List Int}
    (ha : f.Rep a) (hb : IsBytes bytes) (hl : f.nbytes ≤ bytes.length) :
    ∃ out, f.code.packNormalized pr a bytes = .ok (out ++ bytes.drop f.nbytes) ∧
      out.length = f.nbytes ∧ IsBytes out ∧ leVal out = f.V a % 2 ^ f.ubits := by
  have hn := f.nbytes_le
  obtain ⟨ρ', h1, h2, h3⟩ := check_sound (packCheck_ok f) pr (initEnv a bytes)
    (slice_ranges ha.inRs (Shape.length_le ha) hb hl hn)
  have hlen : ∀ (ρ : Env) (n i : Nat), (readSlots ρ i n).length = n := by
    intro ρ n
    induction n with
    | zero => intro i; rfl
    | succ n ih => intro i; simp [readSlots, ih]
  have hrest : readSlots ρ' (16 + f.nbytes) ((bytes.take 112).length - f.nbytes) =
      (bytes.take 112).drop f.nbytes := by
    have hdl : ((bytes.take 112).drop f.nbytes).length = (bytes.take 112).length - f.nbytes := by
      simp
    rw [← hdl]
    apply readSlots_eq
    intro i hi
    rw [hdl] at hi
    have hframe : ρ'.get (16 + f.nbytes + i) = (initEnv a bytes).get (16 + f.nbytes + i) := by
      refine frame pr _ _ _ _ ?_ h1
      have h := packFrame_ok f
      simp only [packFrame, List.all_eq_true, Bool.and_eq_true, Nat.ble_eq, Nat.blt_eq] at h
      simp only [List.all_eq_true, Bool.not_eq_true']
      intro st hst
      have := h st hst
      cases st with
      | bind t e =>
        simp only [stmtSlot] at this
        simp only [assigns]
        cases hbq : Nat.beq (16 + f.nbytes + i) t with
        | false => rfl
        | true => have := Nat.eq_of_beq_eq_true hbq; omega
      | store t e =>
        simp only [stmtSlot] at this
        simp only [assigns]
        cases hbq : Nat.beq (16 + f.nbytes + i) t with
        | false => rfl
        | true => have := Nat.eq_of_beq_eq_true hbq; omega
    rw [hframe, get_initEnv_take, Nat.add_assoc, get_initEnv_arg a _ (by simp) _ (by omega),
      List.getElem?_drop]
  refine ⟨readSlots ρ' 16 f.nbytes, ?_, hlen _ _ _, ?_, ?_⟩
  · have e1 : (bytes.take 112).length = f.nbytes + ((bytes.take 112).length - f.nbytes) := by
      simp only [List.length_take]; omega
    have e2 : (bytes.take 112).drop f.nbytes ++ bytes.drop 112 = bytes.drop f.nbytes := by
      conv_rhs => rw [← List.take_append_drop 112 bytes]
      rw [List.drop_append_of_le_length]
      simp only [List.length_take]; omega
    simp only [FieldCode.packNormalized, h1, bind, Except.bind, pure, Except.pure]
    rw [e1, readSlots_append, hrest, List.append_assoc, e2]
  · have := readSlots_inRs _ _ h2
    simp only [byteR, List.length_replicate] at this
    have := (of_inRs_replicate _ _ _ this).2
    intro x hx
    have := this x hx
    simp at this; omega
  · have h3 := Int.zero_dvd.mp h3
    rw [EForm.val_append, vform_val, vform_val, one_mul, one_mul, Shape.read_self ha] at h3
    obtain ⟨low, top, rfl, hlow, hd, -, -⟩ := id ha
    have hdl := digitsVal_lt f.L low hd
    have hd0 := digitsVal_nonneg f.L low hd
    rw [hlow] at hdl
    have hget : envF (initEnv (low ++ [top]) bytes) (f.k - 1) = top := by
      have := get_initEnv_self (low ++ [top]) bytes (Shape.length_le ha) (f.k - 1) (by simp [hlow])
      rw [envF, this, List.getElem?_append_right hlow.le, hlow, Nat.sub_self]
      rfl
    have hu : f.L * (f.k - 1) ≤ f.ubits := by cases f <;> decide
    have hV : f.V (low ++ [top]) = digitsVal f.L low + 2 ^ (f.L * (f.k - 1)) * top := by
      simp only [V, digitsVal_append, digitsVal, hlow, mul_zero, add_zero]
    have htop : f.packTop.val 0 0 (envF (initEnv (low ++ [top]) bytes)) =
        -(2 ^ f.ubits * (f.V (low ++ [top]) / 2 ^ f.ubits)) := by
      have e : f.V (low ++ [top]) / 2 ^ f.ubits = top / 2 ^ (f.ubits - f.L * (f.k - 1)) := by
        rw [hV]
        conv_lhs => rw [show f.ubits = f.L * (f.k - 1) + (f.ubits - f.L * (f.k - 1)) by omega]
        rw [div_shape hd0 hdl]
      simp only [packTop, EForm.val, kv, p2_eq, hget, e]
      ring
    have := Int.emod_add_mul_ediv (f.V (low ++ [top])) (2 ^ f.ubits)
    rw [htop] at h3
    simp only [V] at *
    simp only [leVal] at *
    linarith

theorem packNormalized_exact (pr : Profile) {a : Elem} {bytes : List Int}
    (ha : f.Shape 0 (2 ^ f.tb - 1) a) (hb : IsBytes bytes) (hl : f.nbytes ≤ bytes.length) :
    ∃ out, f.code.packNormalized pr a bytes = .ok (out ++ bytes.drop f.nbytes) ∧
      out.length = f.nbytes ∧ IsBytes out ∧ leVal out = f.V a := by
  have ht : (2 : Int) ^ f.tb ≤ 2 ^ 62 := pow_le_pow_right₀ (by norm_num) (by cases f <;> decide)
  obtain ⟨out, h1, h2, h3, h4⟩ := packNormalized_all pr
    (Shape.mono ha (by norm_num) (by norm_num at *; linarith) : f.Rep a) hb hl
  have h5 := Shape.lo_le ha
  have h6 := Shape.lt_hi ha
  rw [mul_zero] at h5
  rw [sub_add_cancel, ← pow_n] at h6
  have hu : f.n ≤ f.ubits := by cases f <;> decide
  refine ⟨out, h1, h2, h3, h4.trans (Int.emod_eq_of_lt h5 (h6.trans_le ?_))⟩
  exact pow_le_pow_right₀ (by norm_num) hu

theorem packNormalized_runs (pr : Profile) {a : Elem} {bytes : List Int}
    (ha : f.Rep a) (hb : IsBytes bytes) (hl : f.nbytes ≤ bytes.length) :
    ∃ out, f.code.packNormalized pr a bytes = .ok out := by
  obtain ⟨out, h, -⟩ := packNormalized_all pr ha hb hl
  exact ⟨_, h⟩

end Fld
end Verif
