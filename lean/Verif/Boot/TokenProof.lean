import Verif.Boot.Token

/-! Proofs about the platform token and the key. -/

namespace Verif.Boot

/-- The first `n` bytes of a buffer. -/
def bytes (b : Buf) (n : Nat) : List Byte := (List.range n).map b

@[simp] theorem bytes_length (b : Buf) (n : Nat) : (bytes b n).length = n := by simp [bytes]

theorem bytes_get {b : Buf} {n i : Nat} (h : i < n) : (bytes b n).getD i 0 = b i := by
  simp [bytes, List.getD, List.getElem?_map, List.getElem?_range h]

/-- EL3 says that it is busy. -/
def Resp.busy (r : Resp) : Prop := r.x0 = -6

instance (r : Resp) : Decidable r.busy := inferInstanceAs (Decidable (r.x0 = -6))

/-- The token that EL3 hands over in pieces, if it gets to the last one without an error. -/
def want : List Resp → Option (List Byte)
  | [] => none
  | r :: rs =>
    if r.busy then want rs
    else if r.x0 ≠ 0 then none
    else if r.x2 = 0 then some (bytes r.buf r.x1.toNat)
    else (want rs).map (bytes r.buf r.x1.toNat ++ ·)

/-- An answer as the interface promises: the code is an int, a piece is not empty and fits the shared
buffer, and what remains is no absurd number. -/
structure Resp.Proper (r : Resp) : Prop where
  code : r.x0 = (r.x0.setWidth 32).signExtend 64
  piece : r.x0 = 0 → 0 < r.x1.toNat ∧ r.x1.toNat ≤ 4096
  rest : r.x0 = 0 → r.x2.toNat < 2 ^ 63

/-- What EL3 says is left with each piece is what it then hands over. -/
def Honest : List Resp → Prop
  | [] => True
  | r :: rs => Honest rs ∧ (r.x0 = 0 → r.x2 ≠ 0 → ∀ l, want rs = some l → r.x2.toNat = l.length)

theorem put_put {b h l : Buf} {o n m : Nat} :
    put (put b o h n) (o + n) l m = put b o (fun i => if i < n then h i else l (i - n)) (n + m) := by
  funext i
  unfold put
  by_cases h1 : o + n ≤ i ∧ i < o + n + m
  · rw [if_pos h1, if_pos (by omega)]
    simp only
    rw [if_neg (by omega), show i - o - n = i - (o + n) by omega]
  · rw [if_neg h1]
    by_cases h2 : o ≤ i ∧ i < o + n
    · rw [if_pos h2, if_pos (by omega)]
      simp only
      rw [if_pos (by omega)]
    · rw [if_neg h2, if_neg (by omega)]

theorem put_congr {b h h' : Buf} {o n : Nat} (e : ∀ i < n, h i = h' i) : put b o h n = put b o h' n := by
  funext i
  unfold put
  split
  · next hi => exact e _ (by omega)
  · rfl

theorem append_getD {b : Buf} {n : Nat} {l : List Byte} (i : Nat) :
    (bytes b n ++ l).getD i 0 = if i < n then b i else l.getD (i - n) 0 := by
  by_cases h : i < n
  · rw [if_pos h, ← bytes_get (b := b) h]
    simp [List.getD, List.getElem?_append_left, h]
  · rw [if_neg h]
    simp [List.getD, List.getElem?_append_right, show n ≤ i by omega]

theorem compat_new {ver : BitVec 64} (h : compatible ver = true) : ¬ ((ver >>> 16) &&& 0x7fff = 0 ∧ ver &&& 0xffff < 3) := by
  simp only [compatible, Bool.and_eq_true, decide_eq_true_eq] at h
  exact fun e => absurd h.2 (BitVec.not_le.2 e.2)

/-- The three kinds of answer. -/
theorem round_busy {ver : BitVec 64} {size : Nat} {t : Tok} {r : Resp} (h : r.busy) :
    tokenRound ver size t r = ({ t with calls := t.calls ++ [(t.hashLen, t.shared)], shared := r.buf }, none) := by
  unfold Resp.busy at h
  have hne : r.x0 ≠ 0 := by rw [h]; decide
  unfold tokenRound getPlatToken
  rw [if_pos hne]
  simp only
  rw [if_pos (by rw [h]; decide)]

theorem round_err {ver : BitVec 64} {size : Nat} {t : Tok} {r : Resp} (hp : r.Proper) (hb : ¬ r.busy) (h : r.x0 ≠ 0) :
    tokenRound ver size t r = ({ t with calls := t.calls ++ [(t.hashLen, t.shared)], shared := r.buf }, some .einval) := by
  unfold tokenRound getPlatToken
  rw [if_pos h]
  simp only
  have h1 : r.x0.setWidth 32 ≠ -6 := fun e => hb (by unfold Resp.busy; rw [hp.code, e]; decide)
  have h2 : r.x0.setWidth 32 ≠ 0 := fun e => h (by rw [hp.code, e]; decide)
  rw [if_neg h1, if_pos h2]

theorem round_ok {ver : BitVec 64} {size : Nat} {t : Tok} {r : Resp} (hv : compatible ver = true) (hsz : size < 2 ^ 62)
    (ho : t.offset.toNat ≤ size) (hp : r.Proper) (h : r.x0 = 0) :
    tokenRound ver size t r =
      if t.offset.toNat + r.x1.toNat + r.x2.toNat > size then
        ({ t with calls := t.calls ++ [(t.hashLen, t.shared)], shared := r.buf, hunk := r.x1, rem := r.x2 }, some .enomem)
      else ({ t with
        calls := t.calls ++ [(t.hashLen, t.shared)], shared := r.buf, hunk := r.x1, rem := r.x2
        buf := put t.buf t.offset.toNat r.buf r.x1.toNat
        offset := t.offset + r.x1
        hashLen := 0 }, if r.x2 > 0 then none else some .ok) := by
  unfold tokenRound getPlatToken
  have hx : ¬ r.x0 ≠ 0 := by simp [h]
  rw [if_neg hx]
  dsimp only
  rw [if_neg (compat_new hv)]
  obtain ⟨p1, p2⟩ := hp.piece h
  have p3 := hp.rest h
  rw [h, if_neg (by decide), if_neg (by decide), if_neg (fun e : r.x1 = 0 => by rw [e] at p1; cases p1)]
  unfold sharedSize
  have e1 : (t.offset + r.x1 + r.x2).toNat = t.offset.toNat + r.x1.toNat + r.x2.toNat := by
    rw [BitVec.toNat_add, BitVec.toNat_add]; omega
  have e2 : (t.offset + r.x1 + r.x2 > BitVec.ofNat 64 size) = (t.offset.toNat + r.x1.toNat + r.x2.toNat > size) := by
    rw [gt_iff_lt, BitVec.lt_def, e1, BitVec.toNat_ofNat, Nat.mod_eq_of_lt (by omega)]
  by_cases hc : t.offset.toNat + r.x1.toNat + r.x2.toNat > size
  · rw [if_pos (by rw [e2]; exact hc), if_pos hc]
  · rw [if_neg (by rw [e2]; exact hc), if_neg hc, if_neg (by omega)]

theorem bv_pos {x : BitVec 64} : (x > 0) = ¬ (x = 0) := by
  apply propext
  rw [gt_iff_lt, BitVec.lt_def, show (0 : BitVec 64).toNat = 0 from rfl]
  constructor
  · intro h e; rw [e] at h; exact absurd h (by decide)
  · intro h
    apply Nat.pos_of_ne_zero
    intro e
    exact h (BitVec.eq_of_toNat_eq e)

/-- All that the loop can do when EL3 keeps to the interface. -/
theorem loop_run {ver : BitVec 64} {size : Nat} (hv : compatible ver = true) (hsz : size < 2 ^ 62) : ∀ (rs : List Resp) (t : Tok),
    (∀ r ∈ rs, r.Proper) → t.offset.toNat ≤ size →
    let q := tokenLoop ver size t rs
    q.2 ≠ .assert ∧ q.2 ≠ .overrun ∧
    (q.2 = .ok → ∃ l, want rs = some l ∧ t.offset.toNat + l.length ≤ size ∧ q.1.offset.toNat = t.offset.toNat + l.length ∧
      q.1.buf = put t.buf t.offset.toNat (fun i => l.getD i 0) l.length)
  | [], t, _, _ => ⟨by simp [tokenLoop], by simp [tokenLoop], fun h => (by simp [tokenLoop] at h)⟩
  | r :: rs, t, hp, ho => by
    have hpr := hp r (List.mem_cons_self ..)
    have hps := fun x hx => hp x (List.mem_cons_of_mem _ hx)
    unfold tokenLoop want
    by_cases hb : r.busy
    · rw [round_busy hb, if_pos hb]
      exact loop_run hv hsz rs _ hps ho
    · rw [if_neg hb]
      by_cases h0 : r.x0 = 0
      · have hx : ¬ r.x0 ≠ 0 := by simp [h0]
        rw [round_ok hv hsz ho hpr h0, if_neg hx]
        obtain ⟨p1, p2⟩ := hpr.piece h0
        by_cases hc : t.offset.toNat + r.x1.toNat + r.x2.toNat > size
        · rw [if_pos hc]
          exact ⟨by simp, by simp, fun h => (by cases h)⟩
        · rw [if_neg hc]
          have e : (t.offset + r.x1).toNat = t.offset.toNat + r.x1.toNat := by rw [BitVec.toNat_add]; omega
          by_cases hz : r.x2 = 0
          · have hnz : ¬ r.x2 > 0 := by rw [bv_pos]; simp [hz]
            simp only [if_neg hnz, if_pos hz]
            refine ⟨by simp, by simp, fun _ => ⟨_, rfl, by rw [bytes_length]; omega, by rw [e, bytes_length], ?_⟩⟩
            rw [bytes_length]
            exact put_congr (fun i hi => (bytes_get hi).symm)
          · have hnz : r.x2 > 0 := by rw [bv_pos]; exact hz
            simp only [if_pos hnz, if_neg hz]
            have ih := loop_run hv hsz rs _ hps (show (({ t with
              calls := t.calls ++ [(t.hashLen, t.shared)], shared := r.buf, hunk := r.x1, rem := r.x2
              buf := put t.buf t.offset.toNat r.buf r.x1.toNat
              offset := t.offset + r.x1
              hashLen := 0 } : Tok)).offset.toNat ≤ size by simp only [e]; omega)
            refine ⟨ih.1, ih.2.1, fun h => ?_⟩
            obtain ⟨l, h1, h2, h3, h4⟩ := ih.2.2 h
            simp only [e] at h2 h3 h4
            refine ⟨bytes r.buf r.x1.toNat ++ l, by rw [h1]; rfl, by simp; omega, by rw [h3]; simp; omega, ?_⟩
            rw [h4, put_put]
            rw [List.length_append, bytes_length]
            exact put_congr (fun i _ => (append_getD i).symm)
      · rw [round_err hpr hb h0]
        exact ⟨by simp, by simp, fun h => (by cases h)⟩

theorem loop_complete {ver : BitVec 64} {size : Nat} (hv : compatible ver = true) (hsz : size < 2 ^ 62) : ∀ (rs : List Resp) (t : Tok) {l : List Byte},
    (∀ r ∈ rs, r.Proper) → t.offset.toNat ≤ size → Honest rs → want rs = some l →
    (tokenLoop ver size t rs).2 = (if t.offset.toNat + l.length ≤ size then .ok else .enomem) ∧
    (size < t.offset.toNat + l.length → (tokenLoop ver size t rs).1.buf = t.buf)
  | [], _, _, _, _, _, hw => by cases hw
  | r :: rs, t, l, hp, ho, hh, hw => by
    have hpr := hp r (List.mem_cons_self ..)
    have hps := fun x hx => hp x (List.mem_cons_of_mem _ hx)
    unfold tokenLoop
    unfold want at hw
    by_cases hb : r.busy
    · rw [round_busy hb]
      rw [if_pos hb] at hw
      exact loop_complete hv hsz rs _ hps ho hh.1 hw
    · rw [if_neg hb] at hw
      by_cases h0 : r.x0 = 0
      · rw [if_neg (by simp [h0])] at hw
        rw [round_ok hv hsz ho hpr h0]
        obtain ⟨p1, p2⟩ := hpr.piece h0
        have e : t.offset.toNat + r.x1.toNat ≤ size → (t.offset + r.x1).toNat = t.offset.toNat + r.x1.toNat := by
          intro h; rw [BitVec.toNat_add]; omega
        by_cases hz : r.x2 = 0
        · rw [if_pos hz] at hw
          cases hw
          have hnz : ¬ r.x2 > 0 := by rw [bv_pos]; simp [hz]
          have hz' : r.x2.toNat = 0 := by rw [hz]; rfl
          by_cases hc : t.offset.toNat + r.x1.toNat + r.x2.toNat > size
          · rw [if_pos hc, if_neg (by rw [bytes_length]; omega)]
            exact ⟨rfl, fun _ => rfl⟩
          · have hle : t.offset.toNat + (bytes r.buf r.x1.toNat).length ≤ size := by rw [bytes_length]; omega
            rw [if_neg hc, if_pos hle]
            simp only [if_neg hnz]
            refine ⟨trivial, fun h => ?_⟩
            omega
        · rw [if_neg hz] at hw
          cases hw' : want rs with
          | none => rw [hw'] at hw; cases hw
          | some l' =>
            rw [hw'] at hw
            have hl : l = bytes r.buf r.x1.toNat ++ l' := by cases hw; rfl
            have hlen : l.length = r.x1.toNat + l'.length := by rw [hl]; simp
            have hr : r.x2.toNat = l'.length := hh.2 h0 hz l' hw'
            have hnz : r.x2 > 0 := by rw [bv_pos]; exact hz
            by_cases hc : t.offset.toNat + r.x1.toNat + r.x2.toNat > size
            · rw [if_pos hc, if_neg (by omega)]
              exact ⟨rfl, fun _ => rfl⟩
            · rw [if_neg hc]
              simp only [if_pos hnz]
              have he := e (by omega)
              have ih := loop_complete hv hsz rs ({ t with
                calls := t.calls ++ [(t.hashLen, t.shared)], shared := r.buf, hunk := r.x1, rem := r.x2
                buf := put t.buf t.offset.toNat r.buf r.x1.toNat
                offset := t.offset + r.x1
                hashLen := 0 }) hps (by simp only [he]; omega) hh.1 hw'
              simp only [he] at ih
              refine ⟨?_, fun h => (by omega)⟩
              rw [ih.1, hlen, Nat.add_assoc]
      · rw [if_pos h0] at hw; cases hw

/-- The calls, whatever EL3 answers. -/
theorem loop_calls {ver : BitVec 64} {size : Nat} : ∀ (rs : List Resp) (t : Tok),
    let q := tokenLoop ver size t rs
    ∃ cs : List (BitVec 64 × Buf), q.1.calls = t.calls ++ cs ∧ cs.length ≤ rs.length ∧
      (∀ i (h : i < cs.length), cs[i].1 = if ∃ j, ∃ hj : j < rs.length, j < i ∧ rs[j].x0.setWidth 32 = (0 : BitVec 32) then 0 else t.hashLen) ∧
      (∀ i (h : i < cs.length), some cs[i].2 = if i = 0 then some t.shared else (rs[i - 1]?).map (·.buf))
  | [], t => ⟨[], by simp [tokenLoop], by simp, fun i h => absurd h (by simp), fun i h => absurd h (by simp)⟩
  | r :: rs, t => by
    -- one round
    have hround : ∃ t' o, tokenRound ver size t r = (t', o) ∧ t'.calls = t.calls ++ [(t.hashLen, t.shared)] ∧ t'.shared = r.buf ∧
        (o = none → t'.hashLen = if r.x0.setWidth 32 = (0 : BitVec 32) then 0 else t.hashLen) := by
      have hg : (getPlatToken ver r t.hunk t.rem).1 = r.x0.setWidth 32 := by
        unfold getPlatToken; split <;> rfl
      unfold tokenRound
      simp only [hg]
      split
      · next h => exact ⟨_, _, rfl, rfl, rfl, fun _ => by rw [h, if_neg (by decide)]⟩
      · split
        · exact ⟨_, _, rfl, rfl, rfl, fun h => by cases h⟩
        · next h2 =>
          have h3 : r.x0.setWidth 32 = (0 : BitVec 32) := by
            by_cases e : r.x0.setWidth 32 = (0 : BitVec 32)
            · exact e
            · exact absurd e h2
          split
          · exact ⟨_, _, rfl, rfl, rfl, fun h => by cases h⟩
          · split
            · exact ⟨_, _, rfl, rfl, rfl, fun h => by cases h⟩
            · split
              · exact ⟨_, _, rfl, rfl, rfl, fun h => by cases h⟩
              · exact ⟨_, _, rfl, rfl, rfl, fun _ => rfl⟩
    obtain ⟨t', o, he, hc, hsh, hh⟩ := hround
    unfold tokenLoop
    rw [he]
    cases o with
    | some out =>
      refine ⟨[(t.hashLen, t.shared)], hc, by simp, ?_, ?_⟩
      · intro i h
        have : i = 0 := by simpa using h
        subst this
        rw [if_neg (by rintro ⟨j, _, h, _⟩; omega)]; rfl
      · intro i h
        have : i = 0 := by simpa using h
        subst this; rfl
    | none =>
      obtain ⟨cs, h1, h2, h3, h4⟩ := loop_calls (ver := ver) (size := size) rs t'
      refine ⟨(t.hashLen, t.shared) :: cs, ?_, by simp; omega, ?_, ?_⟩
      · simp only [h1, hc]; simp
      · intro i h
        cases i with
        | zero => rw [if_neg (by rintro ⟨j, _, h, _⟩; omega)]; rfl
        | succ i =>
          have := h3 i (by simpa using h)
          rw [List.getElem_cons_succ, this, hh rfl]
          by_cases hz : r.x0.setWidth 32 = (0 : BitVec 32)
          · have hx : ∃ j, ∃ hj : j < (r :: rs).length, j < i + 1 ∧ (r :: rs)[j].x0.setWidth 32 = (0 : BitVec 32) :=
              ⟨0, Nat.succ_pos _, Nat.succ_pos _, hz⟩
            rw [if_pos hz, if_pos hx]
            split <;> rfl
          · rw [if_neg hz]
            congr 1
            apply propext
            constructor
            · rintro ⟨j, hj, hji, hx⟩
              exact ⟨j + 1, by simp; omega, by omega, by simpa using hx⟩
            · rintro ⟨j, hj, hji, hx⟩
              cases j with
              | zero => exact absurd (by simpa using hx) hz
              | succ j => exact ⟨j, by simpa using hj, by omega, by simpa using hx⟩
      · intro i h
        cases i with
        | zero => rfl
        | succ i =>
          have := h4 i (by simpa using h)
          rw [List.getElem_cons_succ, this]
          cases i with
          | zero => simp [hsh]
          | succ i => simp

/-- Seeds consist of answers that succeeded. -/
theorem seed_words : ∀ (n : Nat) (a : List (Bool × BitVec 64)) {w : List (BitVec 64)} {a' : List (Bool × BitVec 64)},
    seed n a = some (w, a') → ∃ used, a = used ++ a' ∧ w = (used.filter (·.1)).map (·.2) ∧ w.length = n
  | 0, a, w, a', h => by
    simp only [seed, Option.some.injEq, Prod.mk.injEq] at h
    exact ⟨[], by simp [h.2], by simp [← h.1], by simp [← h.1]⟩
  | n + 1, [], w, a', h => by cases h
  | n + 1, (true, v) :: a, w, a', h => by
    unfold seed at h
    cases hs : seed n a with
    | none => rw [hs] at h; cases h
    | some q =>
      rw [hs] at h
      simp only [Option.map_some, Option.some.injEq, Prod.mk.injEq] at h
      obtain ⟨used, h1, h2, h3⟩ := seed_words n a (w := q.1) (a' := q.2) hs
      exact ⟨(true, v) :: used, by rw [h1, h.2]; rfl, by rw [← h.1, h2]; simp, by rw [← h.1]; simp [h3]⟩
  | n + 1, (false, v) :: a, w, a', h => by
    unfold seed at h
    obtain ⟨used, h1, h2, h3⟩ := seed_words (n + 1) a h
    exact ⟨(false, v) :: used, by rw [h1]; rfl, by rw [h2]; simp, h3⟩

end Verif.Boot
