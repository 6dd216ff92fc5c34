import Verif.Meas.Props

/-!
# C33: extensible measurements

Model of `handle_rsi_measurement_extend` and `handle_rsi_measurement_read`
(/repo/runtime/rsi/realm_attest.c:379-499) on the bytes of `rd->measurement` and the registers of the
calling REC.  The locking of the descriptor is not part of this model (see C40).
-/

namespace Verif.Meas

/-- The registers of the REC and the measurement slots of its realm: slot 0 is the initial
measurement (`RIM_MEASUREMENT_SLOT`), 1 to 4 the extensible ones. -/
structure RealmM where
  regs : Nat → W
  slots : Nat → List Byte

/-- What is handed back: `res->smc_res.x[0..4]`. -/
abbrev SmcRes := Nat → W

/-- `n` bytes of memory from `&rec->regs[i]` on: consecutive registers, little endian. -/
def regBytes (regs : Nat → W) (i n : Nat) : List Byte :=
  (List.range n).map fun j => (regs (i + j / 8) >>> (8 * (j % 8))).setWidth 8

/-- `handle_rsi_measurement_extend`: realm_attest.c:379-440.  `res->smc_res` is zero at entry
(/repo/runtime/core/exit.c:386-390). -/
def extendH (h : Hash) (a : Algo) (m : RealmM) : RealmM × W :=
  let index := m.regs 1
  if index = 0 ∨ 5 ≤ index then (m, 1)
  else
    let size := m.regs 2
    if 64 < size then (m, 1)
    else
      let data := regBytes m.regs 3 size.toNat
      let cur := m.slots index.toNat
      ({ m with slots := fun i => if i = index.toNat then extend h a cur data cur else m.slots i }, 0)

/-- The value of bytes in little endian order. -/
def leNat : List Byte → Nat
  | [] => 0
  | b :: bs => b.toNat + 256 * leNat bs

/-- The 8-byte load `*(unsigned long *)&slot[8 * i]`. -/
def word (slot : List Byte) (i : Nat) : W :=
  BitVec.ofNat 64 (leNat ((List.range 8).map fun j => (slot[8 * i + j]?).getD 0))

/-- `handle_rsi_measurement_read`: realm_attest.c:442-499: the first four words go to the results,
the others directly to the registers of the REC.  When refused, X4 keeps its value
(/repo/runtime/core/exit.c:396-400). -/
def readH (a : Algo) (m : RealmM) : RealmM × SmcRes :=
  let idx := m.regs 1
  if 5 ≤ idx then (m, fun i => if i = 0 then 1 else if i = 4 then m.regs 4 else 0)
  else
    let slot := m.slots idx.toNat
    let cnt := a.size / 8
    ({ m with regs := fun r => if 5 ≤ r ∧ r < 9 then (if r - 1 < cnt then word slot (r - 1) else 0) else m.regs r },
     fun i => if 1 ≤ i ∧ i < 5 then word slot (i - 1) else 0)

/-- The registers of the realm when it resumes: exit.c:459-466 copies the five results. -/
def resume (m : RealmM) (res : SmcRes) : Nat → W := fun i => if i < 5 then res i else m.regs i

/-! ## Properties -/

/-- Byte `j` of the data of an extend call: the `j`-th byte, little endian, of X3, X4, … -/
def argByte (regs : Nat → W) (j : Nat) : Byte := intByte (regs (3 + j / 8)) (j % 8)

/-- **C33** RSI_MEASUREMENT_EXTEND with index 1 to 4 and a size of at most 64 replaces exactly that
measurement by the hash of its old value followed by the data in X3…; any other index or size is
refused and nothing changes. -/
theorem C33_extend (h : Hash) (a : Algo) (m : RealmM) (hl : ∀ i < 5, (m.slots i).length = 64) :
    ((1 ≤ (m.regs 1).toNat ∧ (m.regs 1).toNat ≤ 4 ∧ (m.regs 2).toNat ≤ 64) →
      (extendH h a m).2 = 0 ∧ (extendH h a m).1.regs = m.regs ∧
      ((extendH h a m).1.slots (m.regs 1).toNat).take a.size =
        h.f a ((m.slots (m.regs 1).toNat).take a.size ++
          (List.range (m.regs 2).toNat).map (argByte m.regs)) ∧
      (∀ i < 5, ((extendH h a m).1.slots i).length = 64) ∧
      ∀ i, i ≠ (m.regs 1).toNat → (extendH h a m).1.slots i = m.slots i) ∧
    (¬ (1 ≤ (m.regs 1).toNat ∧ (m.regs 1).toNat ≤ 4 ∧ (m.regs 2).toNat ≤ 64) →
      extendH h a m = (m, 1)) := by
  have e0 : (m.regs 1 = 0 ∨ 5 ≤ m.regs 1) ↔ ((m.regs 1).toNat = 0 ∨ 5 ≤ (m.regs 1).toNat) := by
    rw [BitVec.le_def, ← BitVec.toNat_inj]; rfl
  have e1 : 64 < m.regs 2 ↔ 64 < (m.regs 2).toNat := by rw [BitVec.lt_def]; rfl
  constructor
  · rintro ⟨h1, h2, h3⟩
    have n0 : ¬ (m.regs 1 = 0 ∨ 5 ≤ m.regs 1) := by rw [e0]; omega
    have n1 : ¬ 64 < m.regs 2 := by rw [e1]; omega
    simp only [extendH, if_neg n0, if_neg n1]
    refine ⟨trivial, trivial, ?_, fun i hi => ?_, fun i hi => if_neg hi⟩
    · rw [if_pos trivial]
      unfold extend memcpy
      rw [List.take_of_length_le (i := a.size) (l := h.f a _) (by rw [h.len]),
        List.take_append_of_le_length (by rw [h.len]), List.take_of_length_le (by rw [h.len])]
      congr 2
      unfold regBytes
      refine List.map_congr_left fun j _ => ?_
      unfold argByte intByte
      apply BitVec.eq_of_toNat_eq
      simp [BitVec.toNat_ushiftRight, Nat.shiftRight_eq_div_pow, Nat.pow_mul]
    · split
      · unfold extend memcpy
        have := size_le a
        rename_i he; subst he
        simp [h.len, hl _ hi]; omega
      · exact hl i hi
  · intro hn
    unfold extendH
    dsimp only
    by_cases n0 : m.regs 1 = 0 ∨ 5 ≤ m.regs 1
    · rw [if_pos n0]
    · rw [if_neg n0, if_pos]
      rw [e0] at n0; rw [e1]; omega

/-- **C33** RSI_MEASUREMENT_EXTEND never changes the realm initial measurement. -/
theorem C33_rim_unchanged (h : Hash) (a : Algo) (m : RealmM) : (extendH h a m).1.slots 0 = m.slots 0 := by
  unfold extendH
  dsimp only
  by_cases n0 : m.regs 1 = 0 ∨ 5 ≤ m.regs 1
  · rw [if_pos n0]
  · rw [if_neg n0]
    split
    · rfl
    · dsimp only
      rw [if_neg]
      intro e
      apply n0; left
      apply BitVec.eq_of_toNat_eq; rw [← e]; rfl

/-! ### A history of extensions -/

/-- One RSI_MEASUREMENT_EXTEND call of the realm: its register values. -/
abbrev Call := Nat → W

/-- Perform the calls in order (the realm may set its registers freely before each). -/
def extendAll (h : Hash) (a : Algo) (slots : Nat → List Byte) (cs : List Call) : Nat → List Byte :=
  cs.foldl (fun s c => (extendH h a ⟨c, s⟩).1.slots) slots

/-- The call extends measurement `i`. -/
def Extends (i : Nat) (c : Call) : Prop := (c 1).toNat = i ∧ 1 ≤ i ∧ i ≤ 4 ∧ (c 2).toNat ≤ 64

instance (i : Nat) (c : Call) : Decidable (Extends i c) := by unfold Extends; infer_instance

/-- **C33** After any sequence of calls each measurement is the hash chain over the data of just the
calls that named it, in order, starting from its value before; the initial measurement (which no call
can name) is unchanged. -/
theorem C33_chain (h : Hash) (a : Algo) (cs : List Call) (slots : Nat → List Byte)
    (hl : ∀ i < 5, (slots i).length = 64) (i : Nat) (hi : i < 5) :
    (extendAll h a slots cs i).take a.size =
      (cs.filter (fun c => decide (Extends i c))).foldl
        (fun d c => h.f a (d ++ (List.range (c 2).toNat).map (argByte c))) ((slots i).take a.size) := by
  unfold extendAll
  induction cs generalizing slots with
  | nil => rfl
  | cons c cs ih =>
    rw [List.foldl_cons]
    have k := C33_extend h a ⟨c, slots⟩ hl
    by_cases he : 1 ≤ (c 1).toNat ∧ (c 1).toNat ≤ 4 ∧ (c 2).toNat ≤ 64
    · obtain ⟨_, _, k1, k2, k3⟩ := k.1 he
      rw [ih _ k2]
      by_cases hc : (c 1).toNat = i
      · subst hc
        rw [List.filter_cons_of_pos (by simp [Extends, he]), List.foldl_cons, k1]
      · rw [List.filter_cons_of_neg (by simp [Extends, hc]), k3 i (Ne.symm hc)]
    · have k1 := k.2 he
      rw [k1, ih _ hl, List.filter_cons_of_neg]
      rw [decide_eq_true_eq]
      rintro ⟨rfl, h2⟩; exact he h2

/-! ### Reading -/

theorem leNat_byte (bs : List Byte) (j : Nat) : leNat bs / 256 ^ j % 256 = ((bs[j]?).getD 0).toNat := by
  induction bs generalizing j with
  | nil => simp [leNat]
  | cons b bs ih =>
    have hb : b.toNat < 256 := b.isLt
    cases j with
    | zero => simp [leNat]; omega
    | succ j =>
      rw [List.getElem?_cons_succ, ← ih j, leNat, Nat.pow_succ, Nat.mul_comm (256 ^ j), ← Nat.div_div_eq_div_mul]
      congr 2
      omega

theorem word_byte (slot : List Byte) (i j : Nat) (hj : j < 8) :
    intByte (word slot i) j = (slot[8 * i + j]?).getD 0 := by
  have hlt : ∀ l : List Byte, leNat l < 256 ^ l.length := by
    intro l
    induction l with
    | nil => simp [leNat]
    | cons b bs ih =>
      have hb : b.toNat < 256 := b.isLt
      rw [leNat, List.length_cons, Nat.pow_succ]; omega
  unfold intByte word
  apply BitVec.eq_of_toNat_eq
  rw [BitVec.toNat_ofNat, BitVec.toNat_ofNat, Nat.mod_eq_of_lt (a := leNat _)]
  · rw [show 2 ^ 8 = 256 from rfl, leNat_byte]
    simp [List.getElem?_range hj]
  · refine Nat.lt_of_lt_of_eq (hlt _) ?_
    rw [List.length_map, List.length_range]; rfl

/-- **C33** RSI_MEASUREMENT_READ of an index 0 to 4 returns success, and when the realm resumes,
X1 to X8 hold the current value of that measurement, byte by byte, padded with zeros to 64 bytes; no
other register than X0 to X8 changes and no measurement does. -/
theorem C33_read (a : Algo) (m : RealmM) (hl : ∀ i < 5, (m.slots i).length = 64) (hi : (m.regs 1).toNat < 5) :
    resume (readH a m).1 (readH a m).2 0 = 0 ∧
    (∀ j < 64, intByte (resume (readH a m).1 (readH a m).2 (1 + j / 8)) (j % 8) =
      if h : j < a.size then (m.slots (m.regs 1).toNat)[j]'(by
        rw [hl _ hi]; exact Nat.lt_of_lt_of_le h (size_le a)) else 0) ∧
    (∀ r, 9 ≤ r → resume (readH a m).1 (readH a m).2 r = m.regs r) ∧
    (readH a m).1.slots = m.slots := by
  have n0 : ¬ (5 ≤ m.regs 1) := by rw [BitVec.le_def]; exact Nat.not_le.mpr hi
  have h8 : a.size / 8 = 4 ∨ a.size / 8 = 8 := by cases a <;> decide
  have h8' : a.size % 8 = 0 := by cases a <;> decide
  simp only [readH, if_neg n0]
  refine ⟨rfl, fun j hj => ?_, fun r hr => ?_, trivial⟩
  · have key : 8 * (j / 8) + j % 8 = j := by omega
    have hb := word_byte (m.slots (m.regs 1).toNat) (j / 8) (j % 8) (by omega)
    rw [key, List.getElem?_eq_getElem (by rw [hl _ hi]; exact hj), Option.getD_some] at hb
    unfold resume
    dsimp only
    by_cases h1 : 1 + j / 8 < 5
    · rw [if_pos h1, if_pos ⟨by omega, h1⟩, Nat.add_sub_cancel_left, hb, dif_pos (by omega)]
    · rw [if_neg h1, if_pos (by omega), Nat.add_sub_cancel_left]
      by_cases h2 : j / 8 < a.size / 8
      · rw [if_pos h2, hb, dif_pos (by omega)]
      · rw [if_neg h2, dif_neg (by omega)]; simp [intByte]
  · unfold resume
    dsimp only
    rw [if_neg (by omega), if_neg (by omega)]

/-- **C33** Reading any other index is refused; nothing but X0 to X4 changes. -/
theorem C33_read_refused (a : Algo) (m : RealmM) (hi : 5 ≤ (m.regs 1).toNat) :
    resume (readH a m).1 (readH a m).2 0 = 1 ∧ (readH a m).1 = m := by
  have n0 : 5 ≤ m.regs 1 := by rw [BitVec.le_def]; exact hi
  simp only [readH, if_pos n0]
  exact ⟨rfl, trivial⟩

/-- A realm that extends measurement 2 with three bytes, as in `C33_extend`. -/
example : let m : RealmM := ⟨fun i => if i = 1 then 2 else if i = 2 then 3 else 0x0807060504030201, fun _ => zeros 64⟩
    (∀ i < 5, (m.slots i).length = 64) ∧ (1 ≤ (m.regs 1).toNat ∧ (m.regs 1).toNat ≤ 4 ∧ (m.regs 2).toNat ≤ 64) ∧
    (List.range (m.regs 2).toNat).map (argByte m.regs) = [1, 2, 3] := by
  exact ⟨fun i _ => by simp [zeros], by decide, by decide⟩

end Verif.Meas
