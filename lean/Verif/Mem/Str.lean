import Verif.Mem.CopyProof

/-!
# strlen, strcmp, strncmp and strchr (C57)
-/

namespace Verif.Mem

/-- strlen.c:10-14: the loop. -/
def strlenFrom (p : Perm) (m : Mem) (cur : Addr) : Nat → Option Addr
  | 0 => none
  | fuel + 1 => do
    let b ← ld p m cur
    if b ≠ 0 then strlenFrom p m (cur + 1) fuel else some cur

/-- strlen.c:8-17: the difference of the pointers. -/
def strlen (p : Perm) (m : Mem) (s : Addr) (fuel : Nat) : Option (BitVec 64) :=
  (strlenFrom p m s fuel).map (· - s)

/-- strcmp.c:38-48. -/
def strcmp (p : Perm) (m : Mem) (s1 s2 : Addr) : Nat → Option Int
  | 0 => none
  | fuel + 1 => do
    let a ← ld p m s1
    let b ← ld p m s2
    let s2 := s2 + 1
    if a = b then
      let c ← ld p m s1
      if c = 0 then some 0 else strcmp p m (s1 + 1) s2 fuel
    else
      let x ← ld p m s1
      let y ← ld p m (s2 - 1)
      some ((x.toNat : Int) - y.toNat)

/-- strncmp.c:37-47: the loop, `n` is not zero. -/
def strncmpLoop (p : Perm) (m : Mem) (s1 s2 : Addr) : Nat → Option Int
  | 0 => none
  | n + 1 => do
    let a ← ld p m s1
    let b ← ld p m s2
    let s2 := s2 + 1
    if a ≠ b then
      let x ← ld p m s1
      let y ← ld p m (s2 - 1)
      some ((x.toNat : Int) - y.toNat)
    else
      let c ← ld p m s1
      if c = 0 then some 0
      else if n ≠ 0 then strncmpLoop p m (s1 + 1) s2 n else some 0

/-- strncmp.c:31-50. -/
def strncmp (p : Perm) (m : Mem) (s1 s2 : Addr) (n : Nat) : Option Int :=
  if n = 0 then some 0 else strncmpLoop p m s1 s2 n

/-- strchr.c:33-50; NULL is 0. -/
def strchr (p : Perm) (m : Mem) (s : Addr) (ch : BitVec 32) : Nat → Option Addr
  | 0 => none
  | fuel + 1 => do
    let c : Byte := ch.setWidth 8
    let b ← ld p m s
    if b = c then some s
    else
      let b' ← ld p m s
      if b' = 0 then some 0 else strchr p m (s + 1) ch fuel

/-- Byte `i` from `s`. -/
abbrev nth (m : Mem) (s : Addr) (i : Nat) : Byte := m (s + BitVec.ofNat 64 i)

theorem nth_succ (m : Mem) (s : Addr) (i : Nat) : nth m s (i + 1) = nth m (s + 1) i := by
  unfold nth; congr 1; rw [BitVec.ofNat_add]; change s + (_ + 1) = _; grind

theorem off_succ (s : Addr) (i : Nat) : s + BitVec.ofNat 64 (i + 1) = s + 1 + BitVec.ofNat 64 i := by
  rw [BitVec.ofNat_add]; change s + (_ + 1) = _; grind

theorem strlen_run {p : Perm} {m : Mem} : ∀ {L : Nat} {s : Addr} {fuel : Nat}, L < fuel →
    (∀ i ≤ L, p.r (s + BitVec.ofNat 64 i) = true) → (∀ i < L, nth m s i ≠ 0) → nth m s L = 0 →
    strlenFrom p m s fuel = some (s + BitVec.ofNat 64 L)
  | 0, s, fuel + 1, _, hr, _, hz => by
    have h0 : p.r s = true := by simpa using hr 0 (by omega)
    have hz : m s = 0 := by simpa [nth] using hz
    simp [strlenFrom, ld, h0, hz]
  | L + 1, s, fuel + 1, hf, hr, hn, hz => by
    have h0 : p.r s = true := by simpa using hr 0 (by omega)
    have hn0 : m s ≠ 0#8 := by simpa [nth] using hn 0 (by omega)
    have ih := strlen_run (L := L) (s := s + 1) (fuel := fuel) (p := p) (m := m) (by omega)
      (fun i hi => by rw [← off_succ]; exact hr (i + 1) (by omega))
      (fun i hi => by rw [← nth_succ]; exact hn (i + 1) (by omega)) (by rw [← nth_succ]; exact hz)
    rw [off_succ, ← ih]
    simp [strlenFrom, ld, h0, hn0]

/-- Where two strings part: the first `k` bytes agree and are not NUL. -/
def Parts (m : Mem) (s1 s2 : Addr) (k : Nat) : Prop :=
  (∀ i < k, nth m s1 i = nth m s2 i) ∧ ∀ i < k, nth m s1 i ≠ 0

theorem parts_succ {m : Mem} {s1 s2 : Addr} {k : Nat} (h0 : m s1 = m s2) (hz : m s1 ≠ 0)
    (h : Parts m (s1 + 1) (s2 + 1) k) : Parts m s1 s2 (k + 1) := by
  constructor
  · intro i hi
    match i with
    | 0 => simpa [nth] using h0
    | i + 1 => rw [nth_succ, nth_succ]; exact h.1 i (by omega)
  · intro i hi
    match i with
    | 0 => simpa [nth] using hz
    | i + 1 => rw [nth_succ]; exact h.2 i (by omega)

theorem strcmp_run {p : Perm} {m : Mem} : ∀ {k : Nat} {s1 s2 : Addr} {fuel : Nat}, k < fuel →
    (∀ i ≤ k, p.r (s1 + BitVec.ofNat 64 i) = true) → (∀ i ≤ k, p.r (s2 + BitVec.ofNat 64 i) = true) →
    Parts m s1 s2 k → (nth m s1 k = 0 ∨ nth m s1 k ≠ nth m s2 k) →
    strcmp p m s1 s2 fuel = some (((nth m s1 k).toNat : Int) - (nth m s2 k).toNat)
  | 0, s1, s2, fuel + 1, _, h1, h2, _, hd => by
    have a1 : p.r s1 = true := by simpa using h1 0 (by omega)
    have a2 : p.r s2 = true := by simpa using h2 0 (by omega)
    have e : s2 + 1#64 - 1#64 = s2 := by grind
    have hd : m s1 = 0 ∨ m s1 ≠ m s2 := by simpa [nth] using hd
    by_cases h : m s1 = m s2
    · have hz : m s2 = 0 := by rcases hd with hd | hd; exacts [h ▸ hd, absurd h hd]
      simp [strcmp, ld, a1, a2, h, hz, nth]
    · simp [strcmp, ld, a1, a2, h, nth, e]
  | k + 1, s1, s2, fuel + 1, hf, h1, h2, hp, hd => by
    have a1 : p.r s1 = true := by simpa using h1 0 (by omega)
    have a2 : p.r s2 = true := by simpa using h2 0 (by omega)
    have e0 : m s1 = m s2 := by simpa [nth] using hp.1 0 (by omega)
    have z0 : m s1 ≠ 0 := by simpa [nth] using hp.2 0 (by omega)
    have ih := strcmp_run (k := k) (s1 := s1 + 1) (s2 := s2 + 1) (fuel := fuel) (p := p) (m := m) (by omega)
      (fun i hi => by rw [← off_succ]; exact h1 (i + 1) (by omega))
      (fun i hi => by rw [← off_succ]; exact h2 (i + 1) (by omega))
      ⟨fun i hi => by rw [← nth_succ, ← nth_succ]; exact hp.1 (i + 1) (by omega),
        fun i hi => by rw [← nth_succ]; exact hp.2 (i + 1) (by omega)⟩
      (by rw [← nth_succ, ← nth_succ]; exact hd)
    rw [nth_succ, nth_succ, ← ih]
    have z0' : ¬ m s2 = 0#8 := e0 ▸ z0
    simp [strcmp, ld, a1, a2, e0, z0']

theorem strncmp_run {p : Perm} {m : Mem} : ∀ {n : Nat} {s1 s2 : Addr}, 0 < n →
    (∀ i < n, Parts m s1 s2 i → p.r (s1 + BitVec.ofNat 64 i) = true ∧ p.r (s2 + BitVec.ofNat 64 i) = true) →
    (∃ k < n, Parts m s1 s2 k ∧ (nth m s1 k = 0 ∨ nth m s1 k ≠ nth m s2 k) ∧
      strncmpLoop p m s1 s2 n = some (((nth m s1 k).toNat : Int) - (nth m s2 k).toNat)) ∨
    (Parts m s1 s2 n ∧ strncmpLoop p m s1 s2 n = some 0)
  | n + 1, s1, s2, _, hr => by
    have p0 : Parts m s1 s2 0 := ⟨fun _ h => absurd h (by omega), fun _ h => absurd h (by omega)⟩
    have a1 : p.r s1 = true := by simpa using (hr 0 (by omega) p0).1
    have a2 : p.r s2 = true := by simpa using (hr 0 (by omega) p0).2
    by_cases h : m s1 = m s2
    · by_cases hz : m s1 = 0
      · refine .inl ⟨0, by omega, p0, .inl (by simpa [nth] using hz), ?_⟩
        have hz' : m s2 = 0#8 := h ▸ hz
        simp [strncmpLoop, ld, a1, a2, hz', h, nth]
      · have hz' : ¬ m s2 = 0#8 := h ▸ hz
        by_cases hn : n = 0
        · subst hn
          refine .inr ⟨parts_succ h hz ⟨fun _ h => absurd h (by omega), fun _ h => absurd h (by omega)⟩, ?_⟩
          simp [strncmpLoop, ld, a1, a2, h, hz']
        · have e : strncmpLoop p m s1 s2 (n + 1) = strncmpLoop p m (s1 + 1) (s2 + 1) n := by
            rw [strncmpLoop]
            simp [ld, a1, a2, h, hz', hn]
          rw [e]
          rcases strncmp_run (p := p) (m := m) (n := n) (s1 := s1 + 1) (s2 := s2 + 1) (by omega) (fun i hi hp => by
              rw [← off_succ, ← off_succ]; exact hr (i + 1) (by omega) (parts_succ h hz hp)) with
            ⟨k, hk, hp, hd, he⟩ | ⟨hp, he⟩
          · refine .inl ⟨k + 1, by omega, parts_succ h hz hp, ?_, ?_⟩
            · rw [nth_succ, nth_succ]; exact hd
            · rw [nth_succ, nth_succ]; exact he
          · exact .inr ⟨parts_succ h hz hp, he⟩
    · refine .inl ⟨0, by omega, p0, .inr (by simpa [nth] using h), ?_⟩
      have e : s2 + 1#64 - 1#64 = s2 := by grind
      simp [strncmpLoop, ld, a1, a2, h, nth, e]

theorem strchr_run {p : Perm} {m : Mem} {ch : BitVec 32} : ∀ {k : Nat} {s : Addr} {fuel : Nat}, k < fuel →
    (∀ i ≤ k, p.r (s + BitVec.ofNat 64 i) = true) → (∀ i < k, nth m s i ≠ 0 ∧ nth m s i ≠ ch.setWidth 8) →
    (nth m s k = 0 ∨ nth m s k = ch.setWidth 8) →
    strchr p m s ch fuel = some (if nth m s k = ch.setWidth 8 then s + BitVec.ofNat 64 k else 0)
  | 0, s, fuel + 1, _, hr, _, hd => by
    have h0 : p.r s = true := by simpa using hr 0 (by omega)
    by_cases h : m s = ch.setWidth 8
    · simp [strchr, ld, h0, h, nth]
    · have hz : m s = 0 := by simpa [nth, h] using hd
      have h' : ¬ 0#8 = ch.setWidth 8 := fun h' => h (hz.trans h')
      simp [strchr, ld, h0, hz, nth, h']
  | k + 1, s, fuel + 1, hf, hr, hn, hd => by
    have h0 : p.r s = true := by simpa using hr 0 (by omega)
    have n0 : m s ≠ 0#8 ∧ m s ≠ ch.setWidth 8 := by simpa [nth] using hn 0 (by omega)
    have ih := strchr_run (k := k) (s := s + 1) (fuel := fuel) (p := p) (m := m) (ch := ch) (by omega)
      (fun i hi => by rw [← off_succ]; exact hr (i + 1) (by omega))
      (fun i hi => by rw [← nth_succ]; exact hn (i + 1) (by omega)) (by rw [← nth_succ]; exact hd)
    rw [nth_succ, off_succ, ← ih]
    simp [strchr, ld, h0, n0.1, n0.2]

/-! ## Properties -/

/-- A C string of length `L` at `s`. -/
def IsStr (m : Mem) (s : Addr) (L : Nat) : Prop := (∀ i < L, m (s + BitVec.ofNat 64 i) ≠ 0) ∧ m (s + BitVec.ofNat 64 L) = 0

/-- Its bytes. -/
def chars (m : Mem) (s : Addr) (L : Nat) : List Nat := (List.range L).map fun i => (m (s + BitVec.ofNat 64 i)).toNat

/-- strlen reads nothing past the terminator and returns the length. -/
theorem C57_strlen {p : Perm} {m : Mem} {s : Addr} {L : Nat} (hL : L < 2 ^ 64) (hs : IsStr m s L)
    (hr : ∀ i ≤ L, p.r (s + BitVec.ofNat 64 i) = true) :
    ∃ r, strlen p m s (L + 1) = some r ∧ r.toNat = L := by
  refine ⟨_, by rw [strlen, strlen_run (L := L) (by omega) hr hs.1 hs.2]; rfl, ?_⟩
  change (s + BitVec.ofNat 64 L - s).toNat = L
  rw [show s + BitVec.ofNat 64 L - s = BitVec.ofNat 64 L by grind, BitVec.toNat_ofNat, Nat.mod_eq_of_lt hL]

theorem chars_get {m : Mem} {s : Addr} {L i : Nat} (h : i < L) : (chars m s L)[i]? = some (nth m s i).toNat := by
  simp [chars, h]

theorem first_diff (m : Mem) (s1 s2 : Addr) : ∀ n, (∃ k < n, Parts m s1 s2 k ∧ (nth m s1 k = 0 ∨ nth m s1 k ≠ nth m s2 k)) ∨
    Parts m s1 s2 n
  | 0 => .inr ⟨fun _ h => absurd h (by omega), fun _ h => absurd h (by omega)⟩
  | n + 1 => by
    rcases first_diff m s1 s2 n with ⟨k, hk, h⟩ | h
    · exact .inl ⟨k, by omega, h⟩
    · by_cases hd : nth m s1 n = 0 ∨ nth m s1 n ≠ nth m s2 n
      · exact .inl ⟨n, by omega, h, hd⟩
      · rw [not_or, not_not] at hd
        refine .inr ⟨fun i hi => ?_, fun i hi => ?_⟩
        · by_cases hin : i = n
          · subst hin; exact hd.2
          · exact h.1 i (by omega)
        · by_cases hin : i = n
          · subst hin; exact hd.1
          · exact h.2 i (by omega)

/-- Lexicographic order on lists of bytes, a prefix comes first. -/
def lexLt : List Nat → List Nat → Prop
  | _, [] => False
  | [], _ :: _ => True
  | a :: l, b :: l' => a < b ∨ (a = b ∧ lexLt l l')

theorem lexLt_common (l a b : List Nat) : lexLt (l ++ a) (l ++ b) ↔ lexLt a b := by
  induction l with
  | nil => rfl
  | cons x l ih => simp [lexLt, ih]

/-- Cut a string at `k`. -/
theorem chars_split (m : Mem) (s : Addr) {k L : Nat} (h : k < L) :
    chars m s L = chars m s k ++ (nth m s k).toNat :: chars m (s + BitVec.ofNat 64 (k + 1)) (L - k - 1) := by
  unfold chars
  have hL : L = k + (1 + (L - k - 1)) := by omega
  rw [hL, List.range_add, List.map_append, Nat.add_comm 1, List.range_succ_eq_map]
  simp only [List.map_map, List.map_cons, Function.comp_def, Nat.add_zero]
  congr 2
  have : k + (L - k - 1 + 1) - k - 1 = L - k - 1 := by omega
  rw [this]
  apply List.map_congr_left
  intro i _
  congr 2
  rw [BitVec.add_assoc, ← BitVec.ofNat_add]
  congr 2; omega

theorem chars_eq {m : Mem} {s1 s2 : Addr} {k : Nat} (h : ∀ i < k, nth m s1 i = nth m s2 i) : chars m s1 k = chars m s2 k := by
  unfold chars
  apply List.map_congr_left
  intro i hi
  exact congrArg BitVec.toNat (h i (by simpa using hi))

theorem cmp_order {m : Mem} {s1 s2 : Addr} {L1 L2 k : Nat} (h1 : IsStr m s1 L1) (h2 : IsStr m s2 L2)
    (hp : Parts m s1 s2 k) (hd : nth m s1 k = 0 ∨ nth m s1 k ≠ nth m s2 k) (r : Int)
    (hr : r = ((nth m s1 k).toNat : Int) - (nth m s2 k).toNat) :
    k ≤ L1 ∧ k ≤ L2 ∧ (r = 0 ↔ chars m s1 L1 = chars m s2 L2) ∧ (r < 0 ↔ lexLt (chars m s1 L1) (chars m s2 L2)) := by
  have k1 : k ≤ L1 := by
    by_contra hc; exact hp.2 L1 (by omega) h1.2
  have k2 : k ≤ L2 := by
    by_contra hc; exact hp.2 L2 (by omega) (by rw [hp.1 L2 (by omega)]; exact h2.2)
  refine ⟨k1, k2, ?_⟩
  have hc := chars_eq hp.1
  have pos : ∀ b : Byte, b ≠ 0 → 0 < b.toNat := fun b hb => by
    rcases Nat.eq_zero_or_pos b.toNat with h | h
    · exact absurd (BitVec.eq_of_toNat_eq (by simpa using h)) hb
    · exact h
  by_cases e1 : k = L1
  · by_cases e2 : k = L2
    · have z1 : nth m s1 k = 0 := by rw [e1]; exact h1.2
      have z2 : nth m s2 k = 0 := by rw [e2]; exact h2.2
      have : r = 0 := by rw [hr, z1, z2]; rfl
      rw [← e1, ← e2, hc, this]
      have : ∀ l, ¬ lexLt l l := by
        intro l; induction l with
        | nil => simp [lexLt]
        | cons a l ih => simp [lexLt, ih]
      simp [this]
    · have z1 : nth m s1 k = 0 := by rw [e1]; exact h1.2
      have z2 := pos _ (h2.1 k (by omega))
      rw [chars_split m s2 (show k < L2 by omega), ← e1, hc]
      have z1' : (nth m s1 k).toNat = 0 := by rw [z1]; rfl
      have : r < 0 := by unfold nth at hr z1'; omega
      constructor
      · simp; omega
      · have := (lexLt_common (chars m s2 k) [] ((nth m s2 k).toNat :: chars m (s2 + BitVec.ofNat 64 (k + 1)) (L2 - k - 1))).2 (by simp [lexLt])
        rw [List.append_nil] at this
        exact ⟨fun _ => this, fun _ => by omega⟩
  · have p1 := pos _ (h1.1 k (by omega))
    have ne : nth m s1 k ≠ nth m s2 k := by
      rcases hd with h | h
      · exact absurd h (h1.1 k (by omega))
      · exact h
    have nen : (nth m s1 k).toNat ≠ (nth m s2 k).toNat := fun h => ne (BitVec.eq_of_toNat_eq h)
    rw [chars_split m s1 (show k < L1 by omega)]
    by_cases e2 : k = L2
    · have z2 : nth m s2 k = 0 := by rw [e2]; exact h2.2
      have hc2 : chars m s2 L2 = chars m s1 k := by rw [← e2, hc]
      have z2' : (nth m s2 k).toNat = 0 := by rw [z2]; rfl
      have : 0 < r := by unfold nth at hr z2'; omega
      rw [hc2]
      constructor
      · simp; omega
      · have h := lexLt_common (chars m s1 k) ((nth m s1 k).toNat :: chars m (s1 + BitVec.ofNat 64 (k + 1)) (L1 - k - 1)) []
        rw [List.append_nil] at h
        rw [h]; simp [lexLt]; omega
    · rw [chars_split m s2 (show k < L2 by omega), ← hc, lexLt_common]
      constructor
      · rw [List.append_cancel_left_eq]; simp [nen]; omega
      · simp only [lexLt]
        constructor
        · intro; left; omega
        · rintro (h | h)
          · omega
          · exact absurd h.1 nen

/-- strcmp orders two strings as their bytes do, and reads neither of them past the first difference or its end. -/
theorem C57_strcmp {p : Perm} {m : Mem} {s1 s2 : Addr} {L1 L2 : Nat} (h1 : IsStr m s1 L1) (h2 : IsStr m s2 L2)
    (hr1 : ∀ i ≤ L1, i ≤ L2 → p.r (s1 + BitVec.ofNat 64 i) = true)
    (hr2 : ∀ i ≤ L2, i ≤ L1 → p.r (s2 + BitVec.ofNat 64 i) = true) :
    ∃ r, strcmp p m s1 s2 (L1 + 1) = some r ∧ (r = 0 ↔ chars m s1 L1 = chars m s2 L2) ∧
      (r < 0 ↔ lexLt (chars m s1 L1) (chars m s2 L2)) := by
  rcases first_diff m s1 s2 (L1 + 1) with ⟨k, hk, hp, hd⟩ | h
  · have ho := cmp_order h1 h2 hp hd _ rfl
    exact ⟨_, strcmp_run hk (fun i hi => hr1 i (by omega) (by omega)) (fun i hi => hr2 i (by omega) (by omega)) hp hd, ho.2.2⟩
  · exact absurd h1.2 (h.2 L1 (by omega))

/-- strncmp says whether the first `n` bytes agree up to a terminator, else which is smaller at the first difference.
It reads no byte after a difference, a terminator or the limit; the strings need no terminator. -/
theorem C57_strncmp {p : Perm} {m : Mem} {s1 s2 : Addr} {n : Nat}
    (hr : ∀ i < n, (∀ j < i, m (s1 + BitVec.ofNat 64 j) = m (s2 + BitVec.ofNat 64 j) ∧ m (s1 + BitVec.ofNat 64 j) ≠ 0) →
      p.r (s1 + BitVec.ofNat 64 i) = true ∧ p.r (s2 + BitVec.ofNat 64 i) = true) :
    ∃ r, strncmp p m s1 s2 n = some r ∧
      (r = 0 ↔ ∀ i < n, (∀ j < i, m (s1 + BitVec.ofNat 64 j) ≠ 0) → m (s1 + BitVec.ofNat 64 i) = m (s2 + BitVec.ofNat 64 i)) ∧
      (r ≠ 0 → ∃ k < n, (∀ j < k, m (s1 + BitVec.ofNat 64 j) = m (s2 + BitVec.ofNat 64 j) ∧ m (s1 + BitVec.ofNat 64 j) ≠ 0) ∧
        r = ((m (s1 + BitVec.ofNat 64 k)).toNat : Int) - (m (s2 + BitVec.ofNat 64 k)).toNat) := by
  unfold strncmp
  by_cases h0 : n = 0
  · subst h0
    exact ⟨0, rfl, by simp, fun h => absurd rfl h⟩
  · rw [if_neg h0]
    rcases strncmp_run (p := p) (m := m) (n := n) (s1 := s1) (s2 := s2) (by omega)
        (fun i hi hp => hr i hi fun j hj => ⟨hp.1 j hj, hp.2 j hj⟩) with ⟨k, hk, hp, hd, e⟩ | ⟨hp, e⟩
    · refine ⟨_, e, ?_, fun _ => ⟨k, hk, fun j hj => ⟨hp.1 j hj, hp.2 j hj⟩, rfl⟩⟩
      constructor
      · intro hz
        have heq : nth m s1 k = nth m s2 k := BitVec.eq_of_toNat_eq (by omega)
        have hz1 : nth m s1 k = 0 := by rcases hd with h | h; exacts [h, absurd heq h]
        intro i hi hj
        by_cases hik : i < k
        · exact hp.1 i hik
        · by_cases hik' : i = k
          · subst hik'; exact heq
          · exact absurd hz1 (hj k (by omega))
      · intro h
        have heq : nth m s1 k = nth m s2 k := h k hk hp.2
        rw [heq]; omega
    · refine ⟨0, e, ⟨fun _ i hi _ => hp.1 i hi, fun _ => rfl⟩, fun h => absurd rfl h⟩

/-- strchr finds the first byte equal to the low byte of `ch`, the terminator included, or returns NULL. -/
theorem C57_strchr {p : Perm} {m : Mem} {s : Addr} {L : Nat} (ch : BitVec 32) (hs : IsStr m s L)
    (hr : ∀ i ≤ L, p.r (s + BitVec.ofNat 64 i) = true) :
    ∃ r, strchr p m s ch (L + 1) = some r ∧
      ((∃ k ≤ L, m (s + BitVec.ofNat 64 k) = ch.setWidth 8 ∧ (∀ i < k, m (s + BitVec.ofNat 64 i) ≠ ch.setWidth 8) ∧
          r = s + BitVec.ofNat 64 k) ∨
        ((∀ i ≤ L, m (s + BitVec.ofNat 64 i) ≠ ch.setWidth 8) ∧ r = 0)) := by
  have key : ∀ n ≤ L + 1, (∃ k < n, nth m s k = ch.setWidth 8 ∧ ∀ i < k, nth m s i ≠ ch.setWidth 8) ∨
      ∀ i < n, nth m s i ≠ ch.setWidth 8 := by
    intro n
    induction n with
    | zero => intro _; exact .inr fun _ h => absurd h (by omega)
    | succ n ih =>
      intro hn
      rcases ih (by omega) with ⟨k, hk, h⟩ | h
      · exact .inl ⟨k, by omega, h⟩
      · by_cases he : nth m s n = ch.setWidth 8
        · exact .inl ⟨n, by omega, he, h⟩
        · refine .inr fun i hi => ?_
          by_cases hin : i = n
          · subst hin; exact he
          · exact h i (by omega)
  rcases key (L + 1) (by omega) with ⟨k, hk, he, h⟩ | h
  · refine ⟨_, strchr_run (k := k) (by omega) (fun i hi => hr i (by omega)) (fun i hi => ⟨hs.1 i (by omega), h i hi⟩) (.inr he), ?_⟩
    rw [if_pos he]
    exact .inl ⟨k, by omega, he, h, rfl⟩
  · refine ⟨_, strchr_run (k := L) (by omega) hr (fun i hi => ⟨hs.1 i hi, h i (by omega)⟩) (.inl hs.2), ?_⟩
    rw [if_neg (h L (by omega))]
    exact .inr ⟨fun i hi => h i (by omega), rfl⟩

/-! ## A concrete memory: "ab" at 0x1000, "ac" at 0x2000 -/

def strMem : Mem := fun a => if a = 0x1000 ∨ a = 0x2000 then 97 else if a = 0x1001 then 98 else if a = 0x2001 then 99 else 0

/-- Only the bytes of the two strings may be read. -/
def strPerm : Perm := ⟨fun a => decide ((a.toNat / 3) ∈ [1365, 1366, 2730, 2731]) , fun _ => false⟩

example : IsStr strMem 0x1000 2 ∧ IsStr strMem 0x2000 2 := by
  unfold IsStr; decide

example : strlen strPerm strMem 0x1000 3 = some 2 ∧ strcmp strPerm strMem 0x1000 0x2000 3 = some (-1) ∧
    strncmp strPerm strMem 0x1000 0x2000 1 = some 0 ∧ strncmp strPerm strMem 0x1000 0x2000 2 = some (-1) ∧
    strchr strPerm strMem 0x1000 0x62 3 = some 0x1001 ∧ strchr strPerm strMem 0x1000 0x63 3 = some 0 ∧
    strchr strPerm strMem 0x1000 0x100 3 = some 0x1002 := by decide

end Verif.Mem
