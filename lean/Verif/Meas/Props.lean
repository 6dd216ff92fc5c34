import Verif.Meas.Model
import Mathlib.Data.List.Induction

/-!
# C32, C33: the measurement chain

The specification works on digests of exactly the size of the algorithm and describes the hashed
structures by offsets.
-/

namespace Verif.Meas

/-! ## Specification -/

/-- Byte `i` of a 64-byte field that holds `d` and zeros after it. -/
def fieldByte (d : List Byte) (i : Nat) : Byte := (d[i]?).getD 0

/-- Byte `i` of an integer in little endian order. -/
def intByte {w : Nat} (v : BitVec w) (i : Nat) : Byte := BitVec.ofNat 8 (v.toNat / 256 ^ i)

/-- What a measured event contributes, in the terms of the RMM specification: type, and the bytes at
0x50 onwards, up to 0x100, as a function of the offset. -/
structure Desc where
  type : Nat
  body : Nat → Byte

/-- The digest of a granule, or nothing when it is not measured. -/
def contentOf (h : Hash) (a : Algo) (flags : W) (b : List Byte) : List Byte :=
  if flags = 1 then h.f a b else []

/-- The hashed realm parameters, by offset (RmiRealmParams of the RMM specification). -/
def specParams (p : Params) : List Byte :=
  (List.range 0x1000).map fun o =>
    if o < 8 then intByte p.flags o
    else if 0x8 ≤ o ∧ o < 0xc then intByte p.s2sz (o - 0x8)
    else if 0x10 ≤ o ∧ o < 0x14 then intByte p.sveVl (o - 0x10)
    else if 0x18 ≤ o ∧ o < 0x1c then intByte p.numBps (o - 0x18)
    else if 0x20 ≤ o ∧ o < 0x24 then intByte p.numWps (o - 0x20)
    else if 0x28 ≤ o ∧ o < 0x2c then intByte p.pmuNumCtrs (o - 0x28)
    else if o = 0x30 then p.algorithm else 0

/-- The hashed REC parameters, by offset (RmiRecParams). -/
def specRecParams (p : RecParams) : List Byte :=
  (List.range 0x1000).map fun o =>
    if o < 8 then intByte p.flags o
    else if 0x200 ≤ o ∧ o < 0x208 then intByte p.pc (o - 0x200)
    else if 0x300 ≤ o ∧ o < 0x340 then intByte (p.gprs (Fin.ofNat 8 ((o - 0x300) / 8))) ((o - 0x300) % 8)
    else 0

/-- The descriptor of each kind of event. -/
def specDesc (h : Hash) (a : Algo) : Ev → Desc
  | .data ipa flags b =>
    { type := 0
      body := fun o =>
        if o < 0x58 then intByte ipa (o - 0x50)
        else if o < 0x60 then intByte flags (o - 0x58)
        else if o < 0xa0 then fieldByte (contentOf h a flags b) (o - 0x60) else 0 }
  | .recd p =>
    { type := 1
      body := fun o => if o < 0x90 then fieldByte (h.f a (specRecParams p)) (o - 0x50) else 0 }
  | .ripas base top =>
    { type := 2
      body := fun o =>
        if o < 0x58 then intByte base (o - 0x50)
        else if o < 0x60 then intByte top (o - 0x58) else 0 }

/-- The 256 bytes hashed for an event when the measurement so far is `d`: type at 0, length 0x100 at
8, current value at 0x10, and the body. -/
def specBytes (d : List Byte) (x : Desc) : List Byte :=
  (List.range 0x100).map fun o =>
    if o = 0 then BitVec.ofNat 8 x.type
    else if o < 8 then 0
    else if o < 0x10 then intByte (0x100 : W) (o - 8)
    else if o < 0x50 then fieldByte d (o - 0x10)
    else x.body o

/-- The Realm Initial Measurement: fold of the hash over the history. -/
def specRim (h : Hash) (a : Algo) (p : Params) : List Ev → List Byte :=
  List.foldl (fun d e => h.f a (specBytes d (specDesc h a e))) (h.f a (specParams p))

/-! ## Lemmas -/

theorem le_eq {w : Nat} (n : Nat) (v : BitVec w) : le n v = (List.range n).map (intByte v) := by
  refine List.map_congr_left fun i _ => ?_
  apply BitVec.eq_of_toNat_eq
  simp [intByte, BitVec.toNat_ushiftRight, Nat.shiftRight_eq_div_pow, Nat.pow_mul]

theorem zeros_eq (n : Nat) : zeros n = (List.range n).map fun _ => 0 := by
  rw [List.map_const', List.length_range]; rfl

theorem field_eq (d : List Byte) (n m : Nat) (hd : d.length = n) (hn : n ≤ m) :
    d ++ zeros (m - n) = (List.range m).map (fieldByte d) := by
  apply List.ext_getElem?
  intro i
  by_cases hi : i < n
  · rw [List.getElem?_append_left (by omega)]
    simp [fieldByte, List.getElem?_range (show i < m by omega), List.getElem?_eq_getElem (show i < d.length by omega)]
  · by_cases hm : i < m
    · rw [List.getElem?_append_right (by omega)]
      simp [fieldByte, zeros, List.getElem?_range hm, List.getElem?_eq_none (show d.length ≤ i by omega),
        show i - d.length < m - n by omega]
    · rw [List.getElem?_eq_none (by simp [zeros]; omega), List.getElem?_eq_none (by simp; omega)]

theorem cat (n m : Nat) (f g : Nat → Byte) :
    (List.range n).map f ++ (List.range m).map g =
      (List.range (n + m)).map fun o => if o < n then f o else g (o - n) := by
  apply List.ext_getElem?
  intro i
  by_cases hi : i < n
  · rw [List.getElem?_append_left (by simpa using hi)]
    simp [List.getElem?_range hi, List.getElem?_range (show i < n + m by omega), hi]
  · rw [List.getElem?_append_right (by simp; omega)]
    by_cases hm : i < n + m
    · simp [List.getElem?_range hm, hi, show i - n < m by omega]
    · rw [List.getElem?_eq_none (by simp; omega), List.getElem?_eq_none (by simp; omega)]

theorem memcpy_self (h : Hash) (a : Algo) (x out : List Byte) :
    hashCompute h a x out = h.f a x ++ out.drop a.size := by
  unfold hashCompute memcpy
  rw [List.take_of_length_le (by rw [h.len])]

theorem hash_zeros (h : Hash) (a : Algo) (x : List Byte) :
    hashCompute h a x (zeros MAXM) = (List.range 64).map (fieldByte (h.f a x)) := by
  rw [memcpy_self, ← field_eq _ a.size 64 (h.len a x) (by cases a <;> decide)]
  exact congrArg _ List.drop_replicate

theorem rim_field (d slot : List Byte) (a : Algo) (hd : slot.take a.size = d) (hs : a.size ≤ slot.length) :
    memcpy (zeros MAXM) slot a.size = (List.range 64).map (fieldByte d) := by
  unfold memcpy
  rw [hd, ← field_eq _ a.size 64 (by rw [← hd]; simp; omega) (by cases a <;> decide)]
  exact congrArg _ List.drop_replicate

theorem nil_field : zeros 64 = (List.range 64).map (fieldByte []) := by
  rw [zeros_eq]; rfl

theorem descData_eq (d : List Byte) (ipa flags : W) (c : List Byte) :
    descData ((List.range 64).map (fieldByte d)) ipa flags ((List.range 64).map (fieldByte c)) =
      specBytes d { type := 0
                    body := fun o =>
                      if o < 0x58 then intByte ipa (o - 0x50)
                      else if o < 0x60 then intByte flags (o - 0x58)
                      else if o < 0xa0 then fieldByte c (o - 0x60) else 0 } := by
  unfold descData specBytes
  simp only [le_eq, zeros_eq, cat]
  refine List.map_congr_left fun o ho => ?_
  rw [List.mem_range] at ho
  split_ifs <;> first | omega | rfl | (subst_vars; rfl) | (congr 1; omega)

theorem descRec_eq (d c : List Byte) :
    descRec ((List.range 64).map (fieldByte d)) ((List.range 64).map (fieldByte c)) =
      specBytes d { type := 1
                    body := fun o => if o < 0x90 then fieldByte c (o - 0x50) else 0 } := by
  unfold descRec specBytes
  simp only [le_eq, zeros_eq, cat]
  refine List.map_congr_left fun o ho => ?_
  rw [List.mem_range] at ho
  split_ifs <;> first | omega | rfl | (subst_vars; rfl) | (congr 1; omega)

theorem descRipas_eq (d : List Byte) (base top : W) :
    descRipas ((List.range 64).map (fieldByte d)) base top =
      specBytes d { type := 2
                    body := fun o =>
                      if o < 0x58 then intByte base (o - 0x50)
                      else if o < 0x60 then intByte top (o - 0x58) else 0 } := by
  unfold descRipas specBytes
  simp only [le_eq, zeros_eq, cat]
  refine List.map_congr_left fun o ho => ?_
  rw [List.mem_range] at ho
  split_ifs <;> first | omega | rfl | (subst_vars; rfl) | (congr 1; omega)

theorem intByte_one (v : BitVec 8) : intByte v 0 = v := by
  apply BitVec.eq_of_toNat_eq; simp [intByte]

/-- **C32** The parameters hashed by REALM_CREATE are laid out as the RMM specification says. -/
theorem C32_params_layout (p : Params) : encParams p = specParams p := by
  unfold encParams specParams
  simp only [le_eq, zeros_eq, cat]
  refine List.map_congr_left fun o ho => ?_
  rw [List.mem_range] at ho
  rcases (by omega : o < 8 ∨ (8 ≤ o ∧ o < 12) ∨ (12 ≤ o ∧ o < 16) ∨ (16 ≤ o ∧ o < 20) ∨ (20 ≤ o ∧ o < 24) ∨
    (24 ≤ o ∧ o < 28) ∨ (28 ≤ o ∧ o < 32) ∨ (32 ≤ o ∧ o < 36) ∨ (36 ≤ o ∧ o < 40) ∨ (40 ≤ o ∧ o < 44) ∨
    (44 ≤ o ∧ o < 48) ∨ o = 48 ∨ 48 < o) with h | h | h | h | h | h | h | h | h | h | h | h | h <;>
    simp (disch := omega) only [if_pos, if_neg]
  subst h; exact intByte_one _

set_option maxRecDepth 8000 in
/-- **C32** The parameters hashed by REC_CREATE are laid out as the RMM specification says. -/
theorem C32_rec_layout (p : RecParams) : encRec p = specRecParams p := by
  unfold encRec specRecParams
  have : (List.finRange 8) = [0, 1, 2, 3, 4, 5, 6, 7] := by decide
  simp only [this, List.flatMap_cons, List.flatMap_nil, List.append_nil]
  simp only [le_eq, zeros_eq, cat]
  refine List.map_congr_left fun o ho => ?_
  rw [List.mem_range] at ho
  rcases (by omega : o < 8 ∨ (8 ≤ o ∧ o < 0x100) ∨ (0x100 ≤ o ∧ o < 0x200) ∨ (0x200 ≤ o ∧ o < 0x208) ∨
    (0x208 ≤ o ∧ o < 0x300) ∨ (0x300 ≤ o ∧ o < 0x308) ∨ (0x308 ≤ o ∧ o < 0x310) ∨ (0x310 ≤ o ∧ o < 0x318) ∨
    (0x318 ≤ o ∧ o < 0x320) ∨ (0x320 ≤ o ∧ o < 0x328) ∨ (0x328 ≤ o ∧ o < 0x330) ∨ (0x330 ≤ o ∧ o < 0x338) ∨
    (0x338 ≤ o ∧ o < 0x340) ∨ 0x340 ≤ o) with h | h | h | h | h | h | h | h | h | h | h | h | h | h
  all_goals simp (disch := omega) only [if_pos, if_neg]
  all_goals
    congr 1
    · congr 1; apply Fin.ext; simp [Fin.ofNat]; omega
    · omega

/-! ## The chain -/

theorem size_le (a : Algo) : a.size ≤ 64 := by cases a <;> decide

theorem hashCompute_length (h : Hash) (a : Algo) (x out : List Byte) (ho : 64 ≤ out.length) :
    (hashCompute h a x out).length = out.length := by
  rw [memcpy_self]; have := size_le a; simp [h.len]; omega

theorem hashCompute_take (h : Hash) (a : Algo) (x out : List Byte) :
    (hashCompute h a x out).take a.size = h.f a x := by
  rw [memcpy_self, List.take_append_of_le_length (by rw [h.len]), List.take_of_length_le (by rw [h.len])]

theorem step_spec (h : Hash) (a : Algo) (slot d : List Byte) (e : Ev)
    (hs : 64 ≤ slot.length) (hd : slot.take a.size = d) :
    (step h a slot e).take a.size = h.f a (specBytes d (specDesc h a e)) ∧
      (step h a slot e).length = slot.length := by
  have hl : a.size ≤ slot.length := Nat.le_trans (size_le a) hs
  cases e with
  | data ipa flags b =>
    simp only [step, dataGranule]
    refine ⟨?_, hashCompute_length _ _ _ _ hs⟩
    rw [hashCompute_take, rim_field d slot a hd hl]
    have : (if flags = MEASURE_CONTENT then hashCompute h a b (zeros MAXM) else zeros MAXM) =
        (List.range 64).map (fieldByte (contentOf h a flags b)) := by
      unfold contentOf
      by_cases hf : flags = 1
      · rw [if_pos hf, if_pos (by exact hf), hash_zeros]
      · rw [if_neg hf, if_neg (by exact hf)]; exact nil_field
    rw [this, descData_eq]; rfl
  | ripas b t =>
    simp only [step, initRipas]
    refine ⟨?_, hashCompute_length _ _ _ _ hs⟩
    rw [hashCompute_take, rim_field d slot a hd hl, descRipas_eq]; rfl
  | recd p =>
    simp only [step, recParams]
    refine ⟨?_, hashCompute_length _ _ _ _ hs⟩
    rw [hashCompute_take, rim_field d slot a hd hl, hash_zeros, descRec_eq, C32_rec_layout]; rfl

/-- **C32** The realm initial measurement held by the code after any sequence of measured events is
the fold of the hash over their descriptors, whatever the memory held before. -/
theorem C32_rim_chain (h : Hash) (a : Algo) (slot0 : List Byte) (hs : 64 ≤ slot0.length)
    (p : Params) (evs : List Ev) :
    (rimSlot h a slot0 p evs).take a.size = specRim h a p evs ∧
      (rimSlot h a slot0 p evs).length = slot0.length := by
  unfold rimSlot specRim
  have h0 : (realmParams h a slot0 p).take a.size = h.f a (specParams p) := by
    unfold realmParams; rw [hashCompute_take, C32_params_layout]
  have hl : (realmParams h a slot0 p).length = slot0.length := hashCompute_length _ _ _ _ hs
  generalize realmParams h a slot0 p = s at h0 hl
  generalize h.f a (specParams p) = d at h0
  induction evs generalizing s d with
  | nil => exact ⟨h0, hl⟩
  | cons e es ih =>
    obtain ⟨h1, h2⟩ := step_spec h a s d e (by omega) h0
    exact ih _ (h2.trans hl) _ h1

/-! ## Different histories -/

/-- What of an event is measured: the contents only if the host asked for it. -/
def measured : Ev → Ev
  | .data ipa flags b => .data ipa flags (if flags = 1 then b else [])
  | e => e

theorem specRim_concat (h : Hash) (a : Algo) (p : Params) (evs : List Ev) (e : Ev) :
    specRim h a p (evs ++ [e]) = h.f a (specBytes (specRim h a p evs) (specDesc h a e)) := by
  simp [specRim]

theorem specRim_len (h : Hash) (a : Algo) (p : Params) (evs : List Ev) :
    (specRim h a p evs).length = a.size := by
  induction evs using List.reverseRecOn with
  | nil => exact h.len _ _
  | append_singleton es e _ => rw [specRim_concat]; exact h.len _ _

theorem range_map_inj {n : Nat} {f g : Nat → Byte}
    (h : (List.range n).map f = (List.range n).map g) : ∀ i < n, f i = g i := by
  intro i hi
  exact List.map_inj_left.mp h i (List.mem_range.mpr hi)

theorem field_inj {d e : List Byte} (hl : d.length = e.length) (hm : d.length ≤ 64)
    (h : ∀ i < 64, fieldByte d i = fieldByte e i) : d = e := by
  apply List.ext_getElem hl
  intro i h1 h2
  have := h i (by omega)
  simpa [fieldByte, h1, h2] using this

theorem int_inj {w : Nat} {n : Nat} (hw : w = 8 * n) {v u : BitVec w}
    (h : ∀ i < n, intByte v i = intByte u i) : v = u := by
  apply BitVec.eq_of_getLsbD_eq
  intro j hj
  have := h (j / 8) (by omega)
  have := congrArg (fun b => b.getLsbD (j % 8)) this
  simp only [intByte, BitVec.getLsbD_ofNat] at this
  have e : ∀ x : BitVec w, (x.toNat / 256 ^ (j / 8)).testBit (j % 8) = x.getLsbD j := by
    intro x
    rw [show (256 : Nat) = 2 ^ 8 from rfl, ← Nat.pow_mul, ← Nat.shiftRight_eq_div_pow, Nat.testBit_shiftRight,
      show 8 * (j / 8) + j % 8 = j by omega]
    rfl
  rw [e, e] at this
  simpa [show j % 8 < 8 by omega] using this

/-- The messages hashed for one event besides its descriptor: the contents of a measured page, the parameters of a REC. -/
def extra : Ev → List (List Byte)
  | .data _ flags b => if flags = 1 then [b] else []
  | .ripas _ _ => []
  | .recd p => [specRecParams p]

/-- All messages hashed while the events are measured, from the measurement `d` on. -/
def hashedFrom (h : Hash) (a : Algo) (d : List Byte) : List Ev → List (List Byte)
  | [] => []
  | e :: es => extra e ++ specBytes d (specDesc h a e) :: hashedFrom h a (h.f a (specBytes d (specDesc h a e))) es

/-- All messages hashed while a realm is built. -/
def hashed (h : Hash) (a : Algo) (p : Params) (es : List Ev) : List (List Byte) :=
  specParams p :: hashedFrom h a (h.f a (specParams p)) es

/-- Two different messages with the same digest, one out of each list. There are such messages for every hash function,
but none should ever be found: the lists are those that have really been hashed. -/
def Collision (h : Hash) (a : Algo) (ms ns : List (List Byte)) : Prop :=
  ∃ x ∈ ms, ∃ y ∈ ns, x ≠ y ∧ h.f a x = h.f a y

theorem hashedFrom_concat (h : Hash) (a : Algo) (d : List Byte) (es : List Ev) (e : Ev) :
    hashedFrom h a d (es ++ [e]) = hashedFrom h a d es ++ (extra e ++
      [specBytes (es.foldl (fun d e => h.f a (specBytes d (specDesc h a e))) d) (specDesc h a e)]) := by
  induction es generalizing d with
  | nil => rfl
  | cons x es ih => simp only [List.cons_append, hashedFrom, ih, List.foldl_cons, List.append_assoc]

theorem hashed_concat (h : Hash) (a : Algo) (p : Params) (es : List Ev) (e : Ev) :
    hashed h a p (es ++ [e]) = hashed h a p es ++ (extra e ++ [specBytes (specRim h a p es) (specDesc h a e)]) := by
  unfold hashed specRim
  rw [hashedFrom_concat]; rfl

theorem Collision.mono {h : Hash} {a : Algo} {ms ns ms' ns' : List (List Byte)} (c : Collision h a ms ns)
    (h1 : ∀ x ∈ ms, x ∈ ms') (h2 : ∀ x ∈ ns, x ∈ ns') : Collision h a ms' ns' := by
  obtain ⟨x, hx, y, hy, e⟩ := c
  exact ⟨x, h1 x hx, y, h2 y hy, e⟩

theorem collision_or {h : Hash} {a : Algo} {ms ns : List (List Byte)} {x y : List Byte} (e : h.f a x = h.f a y)
    (hx : x ∈ ms) (hy : y ∈ ns) : x = y ∨ Collision h a ms ns := by
  by_cases hxy : x = y
  · exact .inl hxy
  · exact .inr ⟨x, hx, y, hy, hxy, e⟩

theorem specBytes_inj {d d' : List Byte} {x x' : Desc} (hl : d.length = d'.length) (hm : d.length ≤ 64)
    (h : specBytes d x = specBytes d' x') :
    BitVec.ofNat 8 x.type = BitVec.ofNat 8 x'.type ∧ d = d' ∧ ∀ o, 0x50 ≤ o → o < 0x100 → x.body o = x'.body o := by
  have := range_map_inj h
  refine ⟨by simpa using this 0 (by omega), field_inj hl hm fun i hi => ?_, fun o h1 h2 => ?_⟩
  · have := this (i + 0x10) (by omega)
    simpa (disch := omega) only [if_pos, if_neg, Nat.add_sub_cancel] using this
  · have := this o h2
    simpa (disch := omega) only [if_pos, if_neg] using this

theorem specParams_inj {p q : Params} (h : specParams p = specParams q) : p = q := by
  unfold specParams at h
  have := range_map_inj h
  have e1 : p.flags = q.flags := int_inj (n := 8) rfl fun i hi => by
    have := this i (by omega)
    simpa (disch := omega) only [if_pos, if_neg, Nat.add_sub_cancel] using this
  have e2 : p.s2sz = q.s2sz := int_inj (n := 4) rfl fun i hi => by
    have := this (i + 0x8) (by omega)
    simpa (disch := omega) only [if_pos, if_neg, Nat.add_sub_cancel] using this
  have e3 : p.sveVl = q.sveVl := int_inj (n := 4) rfl fun i hi => by
    have := this (i + 0x10) (by omega)
    simpa (disch := omega) only [if_pos, if_neg, Nat.add_sub_cancel] using this
  have e4 : p.numBps = q.numBps := int_inj (n := 4) rfl fun i hi => by
    have := this (i + 0x18) (by omega)
    simpa (disch := omega) only [if_pos, if_neg, Nat.add_sub_cancel] using this
  have e5 : p.numWps = q.numWps := int_inj (n := 4) rfl fun i hi => by
    have := this (i + 0x20) (by omega)
    simpa (disch := omega) only [if_pos, if_neg, Nat.add_sub_cancel] using this
  have e6 : p.pmuNumCtrs = q.pmuNumCtrs := int_inj (n := 4) rfl fun i hi => by
    have := this (i + 0x28) (by omega)
    simpa (disch := omega) only [if_pos, if_neg, Nat.add_sub_cancel] using this
  have e7 : p.algorithm = q.algorithm := by
    have := this 0x30 (by omega)
    simpa (disch := omega) only [if_pos, if_neg, Nat.add_sub_cancel, if_true] using this
  cases p; cases q; simp_all

theorem specRecParams_inj {p q : RecParams} (h : specRecParams p = specRecParams q) : p = q := by
  unfold specRecParams at h
  have := range_map_inj h
  have e1 : p.flags = q.flags := int_inj (n := 8) rfl fun i hi => by
    have := this i (by omega)
    simpa (disch := omega) only [if_pos, if_neg, Nat.add_sub_cancel] using this
  have e2 : p.pc = q.pc := int_inj (n := 8) rfl fun i hi => by
    have := this (i + 0x200) (by omega)
    simpa (disch := omega) only [if_pos, if_neg, Nat.add_sub_cancel] using this
  have e3 : p.gprs = q.gprs := by
    funext k
    refine int_inj (n := 8) rfl fun i hi => ?_
    have hk := k.isLt
    have := this (8 * k.val + i + 0x300) (by omega)
    simp (disch := omega) only [if_pos, if_neg, Nat.add_sub_cancel] at this
    rw [show (8 * k.val + i) / 8 = k.val by omega, show (8 * k.val + i) % 8 = i by omega,
      show Fin.ofNat 8 k.val = k by apply Fin.ext; simp] at this
    exact this
  cases p; cases q; simp_all

theorem specDesc_inj {h : Hash} {a : Algo} {e e' : Ev}
    (ht : BitVec.ofNat 8 (specDesc h a e).type = BitVec.ofNat 8 (specDesc h a e').type)
    (hb : ∀ o, 0x50 ≤ o → o < 0x100 → (specDesc h a e).body o = (specDesc h a e').body o) :
    measured e = measured e' ∨ Collision h a (extra e) (extra e') := by
  cases e <;> cases e' <;> try (exfalso; revert ht; simp only [specDesc]; decide)
  · rename_i ipa flags b ipa' flags' b'
    have e1 : ipa = ipa' := int_inj (n := 8) rfl fun i hi => by
      have := hb (i + 0x50) (by omega) (by omega)
      simpa (disch := omega) only [specDesc, if_pos, if_neg, Nat.add_sub_cancel] using this
    have e2 : flags = flags' := int_inj (n := 8) rfl fun i hi => by
      have := hb (i + 0x58) (by omega) (by omega)
      simpa (disch := omega) only [specDesc, if_pos, if_neg, Nat.add_sub_cancel] using this
    subst e1 e2
    simp only [measured]
    by_cases hf : flags = 1
    · have e3 : h.f a b = h.f a b' := by
        refine field_inj (by rw [h.len, h.len]) (by rw [h.len]; exact size_le a) fun i hi => ?_
        have := hb (i + 0x60) (by omega) (by omega)
        simpa (disch := omega) only [specDesc, contentOf, if_pos hf, if_pos, if_neg, Nat.add_sub_cancel] using this
      rcases collision_or e3 (ms := extra (.data ipa flags b)) (ns := extra (.data ipa flags b'))
        (by simp [extra, hf]) (by simp [extra, hf]) with e | c
      · left; rw [e]
      · exact .inr c
    · left; rw [if_neg hf, if_neg hf]
  · rename_i b t b' t'
    have e1 : b = b' := int_inj (n := 8) rfl fun i hi => by
      have := hb (i + 0x50) (by omega) (by omega)
      simpa (disch := omega) only [specDesc, if_pos, if_neg, Nat.add_sub_cancel] using this
    have e2 : t = t' := int_inj (n := 8) rfl fun i hi => by
      have := hb (i + 0x58) (by omega) (by omega)
      simpa (disch := omega) only [specDesc, if_pos, if_neg, Nat.add_sub_cancel] using this
    left; rw [e1, e2]
  · rename_i p p'
    have e3 : h.f a (specRecParams p) = h.f a (specRecParams p') := by
      refine field_inj (by rw [h.len, h.len]) (by rw [h.len]; exact size_le a) fun i hi => ?_
      have := hb (i + 0x50) (by omega) (by omega)
      simpa (disch := omega) only [specDesc, if_pos, if_neg, Nat.add_sub_cancel] using this
    rcases collision_or e3 (ms := extra (.recd p)) (ns := extra (.recd p')) (by simp [extra]) (by simp [extra]) with e | c
    · left; rw [specRecParams_inj e]
    · exact .inr c

theorem specBytes_len (d : List Byte) (x : Desc) : (specBytes d x).length = 0x100 := by
  simp only [specBytes, List.length_map, List.length_range]

theorem specParams_len (p : Params) : (specParams p).length = 0x1000 := by
  simp only [specParams, List.length_map, List.length_range]

/-- **C32** Different construction histories have different measurements, unless the hash function
collides on two messages that were really hashed: from equal measurements of two histories, either
they agree in the parameters and in every measured event, in order, or a message hashed in the one
and another hashed in the other have the same digest. -/
theorem C32_history_binding (h : Hash) (a : Algo) (p q : Params) (es fs : List Ev)
    (he : specRim h a p es = specRim h a q fs) :
    (p = q ∧ es.map measured = fs.map measured) ∨ Collision h a (hashed h a p es) (hashed h a q fs) := by
  have hp : ∀ (p : Params) (es : List Ev), specParams p ∈ hashed h a p es := fun p es => List.mem_cons_self
  have hd : ∀ (p : Params) (es : List Ev) (e : Ev),
      specBytes (specRim h a p es) (specDesc h a e) ∈ hashed h a p (es ++ [e]) := fun p es e => by
    rw [hashed_concat]; simp
  have hi : ∀ (p : Params) (es : List Ev) (e : Ev), ∀ x ∈ hashed h a p es, x ∈ hashed h a p (es ++ [e]) :=
    fun p es e x hx => by rw [hashed_concat]; exact List.mem_append_left _ hx
  have hx : ∀ (p : Params) (es : List Ev) (e : Ev), ∀ x ∈ extra e, x ∈ hashed h a p (es ++ [e]) :=
    fun p es e x hx => by
      rw [hashed_concat]; exact List.mem_append_right _ (List.mem_append_left _ hx)
  induction es using List.reverseRecOn generalizing fs with
  | nil =>
    rcases List.eq_nil_or_concat fs with rfl | ⟨fs, f, rfl⟩
    · rcases collision_or (show h.f a (specParams p) = h.f a (specParams q) from he) (hp p []) (hp q []) with e | c
      · exact .inl ⟨specParams_inj e, rfl⟩
      · exact .inr c
    · rw [List.concat_eq_append, specRim_concat] at he
      rw [List.concat_eq_append]
      rcases collision_or (show h.f a (specParams p) = _ from he) (hp p []) (hd q fs f) with e | c
      · have := congrArg List.length e
        rw [specParams_len, specBytes_len] at this
        omega
      · exact .inr c
  | append_singleton es e ih =>
    rw [specRim_concat] at he
    rcases List.eq_nil_or_concat fs with rfl | ⟨fs, f, rfl⟩
    · rcases collision_or (show _ = h.f a (specParams q) from he) (hd p es e) (hp q []) with e | c
      · have := congrArg List.length e
        rw [specParams_len, specBytes_len] at this
        omega
      · exact .inr c
    · rw [List.concat_eq_append, specRim_concat] at he
      rw [List.concat_eq_append]
      rcases collision_or he (hd p es e) (hd q fs f) with e' | c
      · obtain ⟨h1, h2, h3⟩ := specBytes_inj (by rw [specRim_len, specRim_len])
          (by rw [specRim_len]; exact size_le a) e'
        rcases specDesc_inj h1 h3 with h4 | c
        · rcases ih fs h2 with ⟨h5, h6⟩ | c
          · exact .inl ⟨h5, by simp [h4, h6]⟩
          · exact .inr (c.mono (hi p es e) (hi q fs f))
        · exact .inr (c.mono (hx p es e) (hx q fs f))
      · exact .inr c

/-- **C32** The measurement depends only on what is measured: histories that agree there have the
same measurement. -/
theorem C32_same_history (h : Hash) (a : Algo) (p : Params) (es fs : List Ev)
    (he : es.map measured = fs.map measured) : specRim h a p es = specRim h a p fs := by
  have key : ∀ e : Ev, specDesc h a (measured e) = specDesc h a e := by
    intro e
    cases e <;> try rfl
    rename_i ipa flags b
    simp only [measured]
    by_cases hf : flags = 1
    · rw [if_pos hf]
    · rw [if_neg hf]; simp only [specDesc, contentOf, if_neg hf]
  have : ∀ es : List Ev, specRim h a p es = specRim h a p (es.map measured) := by
    intro es
    induction es using List.reverseRecOn with
    | nil => rfl
    | append_singleton es e ih => rw [List.map_append, List.map_singleton, specRim_concat, specRim_concat, ih, key]
  rw [this es, this fs, he]

/-- **C32** Measurements made with different algorithms are never equal. -/
theorem C32_algorithm_binding (h : Hash) (p q : Params) (es fs : List Ev) :
    specRim h .sha256 p es ≠ specRim h .sha512 q fs := by
  intro e
  have := congrArg List.length e
  rw [specRim_len, specRim_len] at this
  exact absurd this (by decide)

/-! ## Witnesses -/

/-- A toy hash: the first bytes of the input, padded. -/
def toyHash : Hash where
  f a x := x.take a.size ++ zeros (a.size - x.length)
  len a x := by simp [zeros]; omega

/-- The hypotheses of `C32_rim_chain` are met by a realm with one measured granule, one populated
range and one REC; for the toy hash the measurement after the INIT_RIPAS event alone starts with the
descriptor's type and length. -/
example : ((rimSlot toyHash .sha256 (zeros 64) ⟨0, 40, 0, 0, 0, 0, 0⟩
    [.data 0x1000 1 [1, 2, 3], .ripas 0 0x2000]).take 16) = [2, 0, 0, 0, 0, 0, 0, 0, 0, 1, 0, 0, 0, 0, 0, 0] := by
  decide +kernel

/-- The messages hashed for a history with a measured and an unmeasured page: parameters, contents and two descriptors. -/
example : (hashed toyHash .sha256 ⟨0, 40, 0, 0, 0, 0, 0⟩ [.data 0x1000 1 [1, 2, 3], .data 0x2000 0 [4]]).length = 4 ∧
    [1, 2, 3] ∈ hashed toyHash .sha256 ⟨0, 40, 0, 0, 0, 0, 0⟩ [.data 0x1000 1 [1, 2, 3], .data 0x2000 0 [4]] := by
  simp [hashed, hashedFrom, extra]

/-- Two different histories, as in `C32_history_binding`. -/
example : [Ev.ripas 0 0x1000].map measured ≠ [Ev.ripas 0 0x2000].map measured := by
  simp [measured]

end Verif.Meas
