import Verif.Tac
import Verif.Rmm.State

/-!
# The RMM machine: arithmetic of table indices
-/

namespace Verif.Rmm

@[grind =] theorem upd_apply {α : Type} (f : Nat → α) (a : Nat) (v : α) (x : Nat) :
    upd f a v x = if x = a then v else f x := rfl

theorem upd_same {α : Type} (f : Nat → α) (a : Nat) (v : α) : upd f a v a = v := by simp [upd]

theorem upd_ne {α : Type} (f : Nat → α) (a : Nat) (v : α) {x : Nat} (h : x ≠ a) :
    upd f a v x = f x := by simp [upd, h]

theorem upd_self {α : Type} (f : Nat → α) (a : Nat) : upd f a (f a) = f := by
  funext x; unfold upd; split <;> simp_all

theorem sz_pos (d : Nat) : 0 < sz d := by unfold sz; positivity

theorem sz_succ (d : Nat) : sz (d + 1) = 512 * sz d := by unfold sz; rw [Nat.pow_succ]; ring

theorem sz_zero : sz 0 = 4096 := by simp [sz]

theorem sz_eq (d : Nat) : sz d = 2 ^ (12 + 9 * d) := by
  unfold sz
  rw [show (512 : Nat) = 2 ^ 9 from rfl, show (4096 : Nat) = 2 ^ 12 from rfl, ← Nat.pow_mul, ← Nat.pow_add]

theorem sz_add (d k : Nat) : sz (d + k) = 512 ^ k * sz d := by
  unfold sz; rw [Nat.pow_add]; ring

theorem sz_dvd {d e : Nat} (h : d ≤ e) : sz d ∣ sz e := by
  obtain ⟨k, rfl⟩ := Nat.exists_eq_add_of_le h
  rw [sz_add]; exact Dvd.intro_left _ rfl

theorem sz_le {d e : Nat} (h : d ≤ e) : sz d ≤ sz e := Nat.le_of_dvd (sz_pos _) (sz_dvd h)

/-- Start of the region described by the table of depth `d` that covers `a`. -/
def al (d a : Nat) : Nat := a / sz (d + 1) * sz (d + 1)

theorem idx_lt (d a : Nat) : idx d a < 512 := by
  unfold idx
  split
  · have := Nat.mod_lt (a / sz d) (show 0 < 16 by omega); omega
  · exact Nat.mod_lt _ (by omega)

theorem sz4 : sz 4 = 2 ^ 48 := by rw [sz_eq]

/-- Below 2^52 the index is always the 9-bit one. -/
theorem idx_eq (d a : Nat) (h : a < 2 ^ 52) : idx d a = a / sz d % 512 := by
  unfold idx
  split
  · subst d
    have h1 : a / sz 4 < 16 := by
      rw [sz4, Nat.div_lt_iff_lt_mul (by positivity)]; omega
    rw [Nat.mod_eq_of_lt h1, Nat.mod_eq_of_lt (by omega)]
  · rfl

theorem al_add (d a : Nat) (h : a < 2 ^ 52) : al d a + idx d a * sz d = a / sz d * sz d := by
  rw [idx_eq d a h]
  unfold al
  rw [sz_succ, Nat.mul_comm 512 (sz d), ← Nat.div_div_eq_div_mul]
  generalize a / sz d = n
  have : n = n / 512 * 512 + n % 512 := by omega
  calc n / 512 * (sz d * 512) + n % 512 * sz d
      = (n / 512 * 512 + n % 512) * sz d := by ring
    _ = n * sz d := by rw [← this]

theorem al_mod (d a : Nat) : al d a % sz (d + 1) = 0 := by unfold al; exact Nat.mul_mod_left _ _

theorem al_le (d a : Nat) : al d a ≤ a := Nat.div_mul_le_self _ _

/-- The entries of a table of base `base` at depth `d`: address `a` lies in entry
`i` exactly when the table covers it and `i` is its index. -/
theorem in_entry (d base i a : Nat) (hb : base % sz (d + 1) = 0) (hi : i < 512) (ha : a < 2 ^ 52) :
    (base + i * sz d ≤ a ∧ a < base + i * sz d + sz d) ↔ (al d a = base ∧ idx d a = i) := by
  obtain ⟨q, rfl⟩ : ∃ q, base = q * sz (d + 1) := ⟨base / sz (d + 1), by
    rw [Nat.div_mul_cancel (Nat.dvd_of_mod_eq_zero hb)]⟩
  have hp := sz_pos d
  rw [idx_eq d a ha]
  unfold al
  rw [sz_succ]
  have e1 : a / (512 * sz d) = a / sz d / 512 := by rw [Nat.mul_comm, ← Nat.div_div_eq_div_mul]
  rw [e1]
  have e2 : a = a / sz d * sz d + a % sz d := by rw [Nat.mul_comm]; exact (Nat.div_add_mod _ _).symm
  have hm := Nat.mod_lt a hp
  constructor
  · rintro ⟨h1, h2⟩
    have h3 : a / sz d = q * 512 + i := by
      apply Nat.div_eq_of_lt_le
      · calc (q * 512 + i) * sz d = q * (512 * sz d) + i * sz d := by ring
          _ ≤ a := h1
      · calc a < q * (512 * sz d) + i * sz d + sz d := h2
          _ = (q * 512 + i + 1) * sz d := by ring
    rw [h3]
    have : (q * 512 + i) / 512 = q := by omega
    rw [this]
    constructor
    · rfl
    · omega
  · rintro ⟨h1, h2⟩
    have h3 : a / sz d / 512 = q := by
      exact Nat.eq_of_mul_eq_mul_right (by positivity) h1
    have h4 : a / sz d = q * 512 + i := by omega
    rw [h4] at e2
    have e3 : (q * 512 + i) * sz d = q * (512 * sz d) + i * sz d := by ring
    omega

/-- Base of the table of depth `d + 1` covering the table of depth `d` that covers `a`. -/
theorem al_al (d e a : Nat) (h : d ≤ e) : al e (al d a) = al e a := by
  unfold al
  obtain ⟨k, hk⟩ := sz_dvd (show d + 1 ≤ e + 1 by omega)
  rw [hk]
  congr 1
  rw [← Nat.div_div_eq_div_mul, ← Nat.div_div_eq_div_mul, Nat.mul_div_cancel _ (sz_pos _)]

theorem idx_al (d e a : Nat) (h : d < e) (ha : a < 2 ^ 52) : idx e (al d a) = idx e a := by
  rw [idx_eq _ _ ha, idx_eq _ _ (lt_of_le_of_lt (al_le d a) ha)]
  unfold al
  obtain ⟨k, hk⟩ := sz_dvd (show d + 1 ≤ e by omega)
  rw [hk, ← Nat.div_div_eq_div_mul, ← Nat.div_div_eq_div_mul, Nat.mul_div_cancel _ (sz_pos _)]

theorem al_of_aligned (d a : Nat) (h : a % sz (d + 1) = 0) : al d a = a :=
  Nat.div_mul_cancel (Nat.dvd_of_mod_eq_zero h)

theorem mod_sz_of_dvd {d e a : Nat} (hde : d ≤ e) (h : a % sz e = 0) : a % sz d = 0 :=
  Nat.mod_eq_zero_of_dvd (dvd_trans (sz_dvd hde) (Nat.dvd_of_mod_eq_zero h))

theorem div_mul_al (d a : Nat) : a / sz (d + 1) * sz (d + 1) = al d a := rfl

/-- Offsets split: offset in the big region is offset of the entry plus offset in
the entry. -/
theorem mod_split (d a : Nat) (ha : a < 2 ^ 52) : a % sz (d + 1) = idx d a * sz d + a % sz d := by
  have h1 := al_add d a ha
  have h2 : al d a + a % sz (d + 1) = a := by
    unfold al; rw [Nat.mul_comm]; exact Nat.div_add_mod _ _
  have h3 : a / sz d * sz d + a % sz d = a := by rw [Nat.mul_comm]; exact Nat.div_add_mod _ _
  omega

/-! ## Counting entries -/

/-- Entries that hold a reference on their table: child tables and data mappings
(/repo/runtime/rmi/rtt.c: `atomic_granule_get(wi.g_llt)`). -/
def Entry.counted : Entry → Bool
  | .assigned _ _ => true
  | .table _ => true
  | _ => false

/-- Number of counted entries among the first `n`. -/
def cnt (t : Nat → Entry) : Nat → Nat
  | 0 => 0
  | n + 1 => cnt t n + (if (t n).counted then 1 else 0)

theorem cnt_le (t : Nat → Entry) (n : Nat) : cnt t n ≤ n := by
  induction n with
  | zero => simp [cnt]
  | succ n ih => unfold cnt; split <;> omega

theorem cnt_congr (t t' : Nat → Entry) (n : Nat) (h : ∀ i < n, (t i).counted = (t' i).counted) :
    cnt t n = cnt t' n := by
  induction n with
  | zero => rfl
  | succ n ih =>
    unfold cnt
    rw [ih (fun i hi => h i (by omega)), h n (by omega)]

theorem cnt_upd (t : Nat → Entry) (i : Nat) (e : Entry) (n : Nat) (hi : i < n) :
    cnt (upd t i e) n + (if (t i).counted then 1 else 0) = cnt t n + (if e.counted then 1 else 0) := by
  induction n with
  | zero => omega
  | succ n ih =>
    unfold cnt
    by_cases h : i = n
    · subst h
      rw [upd_same, cnt_congr (upd t i e) t i (fun j hj => by rw [upd_ne _ _ _ (by omega)])]
      omega
    · rw [upd_ne _ _ _ (by omega)]
      have := ih (by omega)
      omega

theorem cnt_zero (t : Nat → Entry) (n : Nat) (h : ∀ i < n, (t i).counted = false) : cnt t n = 0 := by
  induction n with
  | zero => rfl
  | succ n ih => unfold cnt; rw [ih (fun i hi => h i (by omega)), h n (by omega)]; simp

theorem cnt_full (t : Nat → Entry) (n : Nat) (h : ∀ i < n, (t i).counted = true) : cnt t n = n := by
  induction n with
  | zero => rfl
  | succ n ih => unfold cnt; rw [ih (fun i hi => h i (by omega)), h n (by omega)]; simp

theorem cnt_eq_zero (t : Nat → Entry) (n : Nat) (h : cnt t n = 0) : ∀ i < n, (t i).counted = false := by
  induction n with
  | zero => intro i hi; omega
  | succ n ih =>
    unfold cnt at h
    intro i hi
    by_cases hin : i = n
    · subst hin; by_contra hc; simp at hc; simp [hc] at h
    · exact ih (by omega) i (by omega)

theorem cnt_eq_full (t : Nat → Entry) (n : Nat) (h : cnt t n = n) : ∀ i < n, (t i).counted = true := by
  induction n with
  | zero => intro i hi; omega
  | succ n ih =>
    unfold cnt at h
    have := cnt_le t n
    intro i hi
    by_cases hin : i = n
    · subst hin; by_contra hc; simp at hc; simp [hc] at h; omega
    · exact ih (by split at h <;> omega) i (by omega)

theorem cnt_pos (t : Nat → Entry) (n i : Nat) (hi : i < n) (h : (t i).counted = true) : 1 ≤ cnt t n := by
  by_contra hc
  have := cnt_eq_zero t n (by omega) i hi
  rw [h] at this; simp at this

end Verif.Rmm
