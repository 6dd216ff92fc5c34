import Verif.Run.PropPsci

/-!
# C34: the attestation token

`RSI_ATTEST_TOKEN_INIT` and `RSI_ATTEST_TOKEN_CONTINUE`, for every sequence of realm calls of a REC.
-/

namespace Verif.Run

namespace Spec

/-- RSI_ATTEST_TOKEN_INIT and RSI_ATTEST_TOKEN_CONTINUE. -/
def TOKEN_INIT : BitVec 32 := 0xC4000194
def TOKEN_CONTINUE : BitVec 32 := 0xC4000195

/-- A realm call: the state before and after it; `b` tells whether the realm goes on. -/
structure Turn where
  env : Env
  w : World
  w' : World
  b : Bool

/-- Realm calls of one REC, one after the other; only what RMM keeps for the token links them: the realm may do anything
to its registers and memory in between, and the host to everything else. -/
inductive Trace (a : Att) : List Turn → Att → Prop
  | nil : Trace a [] a
  | snoc {ts : List Turn} {x : Att} {t : Turn} : Trace a ts x → t.w.att = x → realmRsi t.env t.w = some (t.w', t.b) →
      Trace a (ts ++ [t]) t.w'.att

/-- The bytes the realm takes from a call: if it returns SUCCESS (0) or INCOMPLETE (3), the number of bytes in X1, at the
offset X2 in the page X1 named. -/
def chunk (t : Turn) : List Byte :=
  if fid t.w.rc = TOKEN_CONTINUE ∧ (t.w'.rc.regs 0 = 0 ∨ t.w'.rc.regs 0 = 3) then
    match t.env.walk (t.w.rc.regs 1) with
    | .ram pa => load t.w'.mem (pa + (t.w.rc.regs 2).toNat) (t.w'.rc.regs 1).toNat
    | .miss _ _ => []
  else []

def chunks (ts : List Turn) : List Byte := ts.flatMap chunk

/-- The call returned the last bytes. -/
def Done (t : Turn) : Prop := fid t.w.rc = TOKEN_CONTINUE ∧ t.w'.rc.regs 0 = 0

/-- The call returned ERROR_INPUT or ERROR_STATE, and had no other effect. -/
def NoEffect (t : Turn) : Prop :=
  (t.w'.rc.regs 0 = 1 ∨ t.w'.rc.regs 0 = 2) ∧ t.w'.mem = t.w.mem ∧ t.w'.att = t.w.att ∧ t.b = true

end Spec

open Spec

/-! ## One call -/

theorem signLoop_cases {rounds : List (SignRes × Bool)} {a a' : Att} {e : SignEnd} (h : signLoop rounds a = some (a', e)) :
    (a' = a ∨ (a.state = .sign ∧ a.realmLen = 0 ∧ ∃ n, a' = { a with realmLen := n, state := .create })) ∧
    (e = .write → a'.realmLen ≠ 0) ∧ (e = .badState → a'.realmLen = 0 ∧ a'.state ≠ .sign) ∧
    (e = .error → a' = a) ∧
    (a.realmLen = 0 → a.state ≠ .sign → a' = a ∧ e = .badState) ∧ (a.realmLen ≠ 0 → a' = a ∧ e = .write) := by
  induction rounds generalizing a with
  | nil =>
    unfold signLoop at h
    rcases ite_or h with ⟨h1, h⟩ | ⟨h1, h⟩
    · obtain ⟨rfl, rfl⟩ := Prod.mk.inj (Option.some.inj h)
      exact ⟨.inl rfl, fun _ => h1, by simp, by simp, fun x => absurd x h1, fun _ => ⟨rfl, rfl⟩⟩
    rcases ite_or h with ⟨h2, h⟩ | ⟨h2, h⟩
    · obtain ⟨rfl, rfl⟩ := Prod.mk.inj (Option.some.inj h)
      exact ⟨.inl rfl, by simp, fun _ => ⟨by simpa using h1, h2⟩, by simp, fun _ _ => ⟨rfl, rfl⟩, fun x => absurd x h1⟩
    · simp at h
  | cons r rest ih =>
    unfold signLoop at h
    rcases ite_or h with ⟨h1, h⟩ | ⟨h1, h⟩
    · obtain ⟨rfl, rfl⟩ := Prod.mk.inj (Option.some.inj h)
      exact ⟨.inl rfl, fun _ => h1, by simp, by simp, fun x => absurd x h1, fun _ => ⟨rfl, rfl⟩⟩
    rcases ite_or h with ⟨h2, h⟩ | ⟨h2, h⟩
    · obtain ⟨rfl, rfl⟩ := Prod.mk.inj (Option.some.inj h)
      exact ⟨.inl rfl, by simp, fun _ => ⟨by simpa using h1, h2⟩, by simp, fun _ _ => ⟨rfl, rfl⟩, fun x => absurd x h1⟩
    have h2 : a.state = .sign := by simpa using h2
    have h1' : a.realmLen = 0 := by simpa using h1
    obtain ⟨r, irq⟩ := r
    cases r with
    | error =>
      obtain ⟨rfl, rfl⟩ := Prod.mk.inj (Option.some.inj h)
      exact ⟨.inl rfl, by simp, by simp, fun _ => rfl, fun _ x => absurd h2 x, fun x => absurd h1' x⟩
    | inProgress =>
      rcases ite_or h with ⟨_, h⟩ | ⟨_, h⟩
      · obtain ⟨rfl, rfl⟩ := Prod.mk.inj (Option.some.inj h)
        exact ⟨.inl rfl, by simp, by simp, by simp, fun _ x => absurd h2 x, fun x => absurd h1' x⟩
      · exact ih h
    | done n =>
      rcases ite_or h with ⟨_, h⟩ | ⟨_, h⟩
      · obtain ⟨rfl, rfl⟩ := Prod.mk.inj (Option.some.inj h)
        exact ⟨.inr ⟨h2, h1', n, rfl⟩, by simp, by simp, by simp, fun _ x => absurd h2 x, fun x => absurd h1' x⟩
      · obtain ⟨q1, q2, q3, q4, q5, q6⟩ := ih h
        have hq : a' = { a with realmLen := n, state := .create } := by
          rcases q1 with q1 | ⟨q1, _⟩
          · exact q1
          · exact absurd q1 (by simp)
        refine ⟨.inr ⟨h2, h1', n, hq⟩, q2, q3, ?_, fun _ x => absurd h2 x, fun x => absurd h1' x⟩
        intro he
        by_cases hn : n = 0
        · have := (q5 hn (by simp)).2; rw [he] at this; simp at this
        · have := (q6 hn).2; rw [he] at this; simp at this

/-- How a call of CONTINUE ends. -/
inductive ContEnd (env : Env) (w w' : World) (b : Bool) : Prop
  /-- bad arguments -/
  | args (h0 : w'.rc.regs 0 = 1) (hm : w'.mem = w.mem) (ha : w'.att = w.att) (hb : b = true)
  /-- out of sequence -/
  | state (h0 : w'.rc.regs 0 = 2) (hm : w'.mem = w.mem) (hb : b = true)
      (hs : signLoop env.sign w.att = some (w'.att, .badState))
  /-- no byte is written -/
  | none {a : Att} {e : SignEnd} (h0 : w'.rc.regs 0 ≠ 0)
      (h3 : w'.rc.regs 0 = 3 → w'.rc.regs 1 = 0) (hm : w'.mem = w.mem) (hs : signLoop env.sign w.att = some (w'.att, e))
      (hne : e ≠ .badState)
  /-- some bytes are written -/
  | bytes {a1 a : Att} {pa : Nat} {len : Nat} (hs : signLoop env.sign w.att = some (a1, .write))
      (hw : env.walk (w.rc.regs 1) = .ram pa) (hb : b = true) (hoff : (w.rc.regs 2).toNat + (w.rc.regs 3).toNat ≤ 4096)
      (hpar : inPar w.rc (w.rc.regs 1) = true) (hal : aligned (w.rc.regs 1) = true)
      (hsize : (w.rc.regs 3).toNat ≠ 0)
      (hcr : (a1.copied = 0 ∧ a1.state = .create ∧ ∃ t, env.ccaToken = some t ∧
        a = { a1 with state := .notStarted, buf := t, ccaLen := t.length }) ∨ (a1.copied ≠ 0 ∧ a = a1))
      (hlen : len = min (w.rc.regs 3).toNat a.ccaLen)
      (hmem : w'.mem = store w.mem (pa + (w.rc.regs 2).toNat) ((a.buf.drop a.copied).take len))
      (h1 : w'.rc.regs 1 = BitVec.ofNat 64 len)
      (hend : (len < a.ccaLen ∧ w'.rc.regs 0 = 3 ∧ w'.att = { a with ccaLen := a.ccaLen - len, copied := a.copied + len }) ∨
        (len = a.ccaLen ∧ w'.rc.regs 0 = 0 ∧ w'.att = { a with realmLen := 0 }))

theorem fid_ne {r : Rec} {f : BitVec 32} (hf : fid r = f) (v : W) (hv : v.setWidth 32 &&& ~~~0x10000 ≠ f) : r.regs 0 ≠ v := by
  intro h
  apply hv
  rw [← hf, ← h]
  rfl

theorem finish_ret_eq (w : World) (r : Rec) (x : W) (hr : r.regs 4 = w.rc.regs 4) :
    ∃ w' , rsiFinish (w, ret r x) = some (w', true) ∧ w'.rc.regs 0 = x ∧ w'.mem = w.mem ∧ w'.att = w.att ∧ w'.rc.regs 1 = 0 :=
  ⟨_, rfl, rfl, rfl, rfl, rfl⟩

theorem contEnd {env : Env} {w w' : World} {b : Bool} (hf : fid w.rc = TOKEN_CONTINUE)
    (h : realmRsi env w = some (w', b)) : ContEnd env w w' b := by
  unfold realmRsi at h
  rw [hf] at h
  obtain ⟨p, hp, h⟩ := bind_some h
  have hp : rsiTokenContinue env w = some p := hp
  have hx0 : w.rc.regs 0 ≠ 0 := fid_ne hf 0 (by decide)
  have hx3 : w.rc.regs 0 ≠ 3 := fid_ne hf 3 (by decide)
  unfold rsiTokenContinue at hp
  dsimp only at hp
  rcases ite_or hp with ⟨_, hp⟩ | ⟨hargs, hp⟩
  · obtain rfl := Option.some.inj hp
    obtain ⟨rfl, rfl⟩ := Prod.mk.inj (Option.some.inj h)
    exact .args rfl rfl rfl rfl
  rcases ite_or hp with ⟨_, hp⟩ | ⟨hpar, hp⟩
  · obtain rfl := Option.some.inj hp
    obtain ⟨rfl, rfl⟩ := Prod.mk.inj (Option.some.inj h)
    exact .args rfl rfl rfl rfl
  have hpar : inPar w.rc (w.rc.regs 1) = true := by simpa using hpar
  rw [not_or, not_or, not_or] at hargs
  obtain ⟨hal, ho1, ho2, ho3⟩ := hargs
  have hal : aligned (w.rc.regs 1) = true := by simpa using hal
  have hoff : (w.rc.regs 2).toNat + (w.rc.regs 3).toNat ≤ 4096 := by
    rw [gt_iff_lt, BitVec.lt_def] at ho2
    rw [BitVec.lt_def] at ho3
    rw [ge_iff_le, BitVec.le_def] at ho1
    rw [BitVec.toNat_add] at ho2 ho3
    have e : (4096 : W).toNat = 4096 := rfl
    rw [e] at ho1 ho2
    have := (w.rc.regs 3).isLt
    omega
  obtain ⟨⟨a1, e⟩, hs, hp⟩ := map_some hp
  cases e with
  | badState =>
    subst hp
    obtain ⟨rfl, rfl⟩ := Prod.mk.inj (Option.some.inj h)
    exact .state rfl rfl rfl hs
  | error =>
    subst hp
    obtain ⟨rfl, rfl⟩ := Prod.mk.inj (Option.some.inj h)
    exact .none (a := a1) (e := .error) (show (4 : W) ≠ 0 by decide) (fun x => absurd (show (4 : W) = 3 from x) (by decide)) rfl hs
      (by decide)
  | irq =>
    subst hp
    obtain ⟨rfl, rfl⟩ := Prod.mk.inj (Option.some.inj h)
    exact .none (a := a1) (e := .irq) (show (3 : W) ≠ 0 by decide) (fun _ => rfl) rfl hs (by decide)
  | write =>
    dsimp only at hp
    have hne : SignEnd.write ≠ .badState := by decide
    unfold tokenWrite at hp
    dsimp only at hp
    cases hwk : env.walk (w.rc.regs 1) with
    | miss rp l =>
      rw [hwk] at hp
      have fault : rsiFinish ({ w with att := a1 }, s2fault w.rc l) = some (w', b) → ContEnd env w w' b := by
        intro h
        unfold rsiFinish at h
        dsimp only at h
        obtain ⟨w2, h2, h⟩ := map_some h
        obtain ⟨rfl, rfl⟩ := Prod.mk.inj h
        rcases ite_or h2 with ⟨ha, h2⟩ | ⟨ha, h2⟩
        · unfold emulateS2Abort at h2
          rcases ite_or h2 with ⟨hl, h2⟩ | ⟨_, h2⟩
          · obtain rfl := Option.some.inj h2
            exact .none (a := a1) (e := .write) hx0 (fun x => absurd x hx3) rfl hs hne
          · simp at h2
        · exact absurd rfl ha
      cases rp with
      | empty =>
        subst hp
        obtain ⟨rfl, rfl⟩ := Prod.mk.inj (Option.some.inj h)
        exact .none (a := a1) (e := .write) (show (1 : W) ≠ 0 by decide) (fun x => absurd (show (1 : W) = 3 from x) (by decide)) rfl hs
          hne
      | ram => subst hp; exact fault h
      | destroyed => subst hp; exact fault h
    | ram pa =>
      rw [hwk] at hp
      dsimp only at hp
      by_cases hsz : (w.rc.regs 3).toNat = 0
      · rw [if_pos hsz] at hp
        subst hp
        obtain ⟨rfl, rfl⟩ := Prod.mk.inj (Option.some.inj h)
        exact .none (a := a1) (e := .write) (show (3 : W) ≠ 0 by decide) (fun _ => rfl) rfl hs hne
      rw [if_neg hsz] at hp
      have fin : ∀ a : Att, ((a1.copied = 0 ∧ a1.state = .create ∧ ∃ t, env.ccaToken = some t ∧
          a = { a1 with state := .notStarted, buf := t, ccaLen := t.length }) ∨ (a1.copied ≠ 0 ∧ a = a1)) →
          (let len := if (w.rc.regs 3).toNat < a.ccaLen then (w.rc.regs 3).toNat else a.ccaLen
           let mem := store w.mem (pa + (w.rc.regs 2).toNat) ((a.buf.drop a.copied).take len)
           let left := a.ccaLen - len
           if left ≠ 0 then
            (({ w with mem := mem, att := { a with ccaLen := left, copied := a.copied + len } } : World),
             (⟨RETURN_TO_REALM, 0, upd (upd (res0 w.rc) 0 RSI_INCOMPLETE) 1 (BitVec.ofNat 64 len)⟩ : Res))
           else
            ({ w with mem := mem, att := { a with realmLen := 0 } },
             ⟨RETURN_TO_REALM, 0, upd (upd (res0 w.rc) 0 RSI_SUCCESS) 1 (BitVec.ofNat 64 len)⟩)) = p → ContEnd env w w' b := by
        intro a hcr hp
        dsimp only at hp
        generalize hlen : (if (w.rc.regs 3).toNat < a.ccaLen then (w.rc.regs 3).toNat else a.ccaLen) = len at hp
        have hmin : len = min (w.rc.regs 3).toNat a.ccaLen := by
          by_cases hlt : (w.rc.regs 3).toNat < a.ccaLen
          · rw [if_pos hlt] at hlen; omega
          · rw [if_neg hlt] at hlen; omega
        by_cases hleft : a.ccaLen - len ≠ 0
        · rw [if_pos hleft] at hp
          subst hp
          obtain ⟨rfl, rfl⟩ := Prod.mk.inj (Option.some.inj h)
          exact .bytes hs hwk rfl hoff hpar hal hsz hcr hmin rfl rfl (.inl ⟨by omega, rfl, rfl⟩)
        · rw [if_neg hleft] at hp
          subst hp
          obtain ⟨rfl, rfl⟩ := Prod.mk.inj (Option.some.inj h)
          exact .bytes hs hwk rfl hoff hpar hal hsz hcr hmin rfl rfl (.inr ⟨by omega, rfl, rfl⟩)
      by_cases hc : a1.copied = 0
      · rw [if_pos hc] at hp
        by_cases hst : a1.state = .create
        · rw [if_pos hst] at hp
          cases htk : env.ccaToken with
          | none =>
            rw [htk] at hp
            subst hp
            obtain ⟨rfl, rfl⟩ := Prod.mk.inj (Option.some.inj h)
            exact .none (a := a1) (e := .write) (show (1 : W) ≠ 0 by decide) (fun x => absurd (show (1 : W) = 3 from x) (by decide))
              rfl hs hne
          | some t =>
            rw [htk] at hp
            exact fin _ (.inl ⟨hc, hst, t, htk, rfl⟩) hp
        · rw [if_neg hst] at hp
          subst hp
          obtain ⟨rfl, rfl⟩ := Prod.mk.inj (Option.some.inj h)
          exact .none (a := a1) (e := .write) (show (1 : W) ≠ 0 by decide) (fun x => absurd (show (1 : W) = 3 from x) (by decide))
            rfl hs hne
      · rw [if_neg hc] at hp
        exact fin _ (.inr ⟨hc, rfl⟩) hp

theorem finish_att {p : World × Res} {w' : World} {b : Bool} (h : rsiFinish p = some (w', b)) :
    w'.att = p.1.att ∧ w'.mem = p.1.mem := by
  unfold rsiFinish at h
  dsimp only at h
  obtain ⟨w2, h2, h⟩ := map_some h
  obtain ⟨rfl, rfl⟩ := Prod.mk.inj h
  rcases ite_or h2 with ⟨_, h2⟩ | ⟨_, h2⟩
  · unfold emulateS2Abort at h2
    rcases ite_or h2 with ⟨_, h2⟩ | ⟨_, h2⟩
    · obtain rfl := Option.some.inj h2; exact ⟨rfl, rfl⟩
    · simp at h2
  · obtain rfl := Option.some.inj h2; exact ⟨rfl, rfl⟩

theorem psci_att (env : Env) (w : World) : (psci env w).1.att = w.att := by
  unfold psci psciSuspend psciOff psciOn psciAffinity psciSystemOff psciFeatures
  dsimp only
  repeat' split
  all_goals rfl

/-- The other calls leave the token alone. -/
theorem other_att {env : Env} {w w' : World} {b : Bool} (h1 : fid w.rc ≠ TOKEN_INIT) (h2 : fid w.rc ≠ TOKEN_CONTINUE)
    (h : realmRsi env w = some (w', b)) : w'.att = w.att := by
  unfold realmRsi at h
  obtain ⟨p, hp, h⟩ := bind_some h
  rw [(finish_att h).1]
  unfold rsiSwitch at hp
  rcases ite_or hp with ⟨_, hp⟩ | ⟨_, hp⟩
  · obtain rfl := Option.some.inj hp; rfl
  rcases ite_or hp with ⟨_, hp⟩ | ⟨_, hp⟩
  · obtain rfl := Option.some.inj hp; exact psci_att env w
  rcases ite_or hp with ⟨_, hp⟩ | ⟨_, hp⟩
  · obtain rfl := Option.some.inj hp; rfl
  rcases ite_or hp with ⟨_, hp⟩ | ⟨_, hp⟩
  · obtain rfl := Option.some.inj hp; rfl
  rcases ite_or hp with ⟨hf, hp⟩ | ⟨_, hp⟩
  · exact absurd hf h1
  rcases ite_or hp with ⟨hf, hp⟩ | ⟨_, hp⟩
  · exact absurd hf h2
  rcases ite_or hp with ⟨_, hp⟩ | ⟨_, hp⟩
  · obtain rfl := Option.some.inj hp; rfl
  rcases ite_or hp with ⟨_, hp⟩ | ⟨_, hp⟩
  · obtain rfl := Option.some.inj hp; rfl
  rcases ite_or hp with ⟨_, hp⟩ | ⟨_, hp⟩
  · obtain rfl := Option.some.inj hp
    unfold rsiConfig
    dsimp only
    repeat' split
    all_goals rfl
  rcases ite_or hp with ⟨_, hp⟩ | ⟨_, hp⟩
  · obtain rfl := Option.some.inj hp
    unfold rsiIpaStateSet
    dsimp only
    split <;> rfl
  rcases ite_or hp with ⟨_, hp⟩ | ⟨_, hp⟩
  · obtain rfl := Option.some.inj hp
    unfold rsiIpaStateGet
    dsimp only
    repeat' split
    all_goals rfl
  rcases ite_or hp with ⟨_, hp⟩ | ⟨_, hp⟩
  · unfold rsiHostCall at hp
    dsimp only at hp
    rcases ite_or hp with ⟨_, hp⟩ | ⟨_, hp⟩
    · obtain rfl := Option.some.inj hp; rfl
    rcases ite_or hp with ⟨_, hp⟩ | ⟨_, hp⟩
    · obtain rfl := Option.some.inj hp; rfl
    rcases ite_or hp with ⟨_, hp⟩ | ⟨_, hp⟩
    · obtain rfl := Option.some.inj hp; rfl
    obtain ⟨k, hk, hp⟩ := map_some hp
    split at hp
    · subst hp; rfl
    · subst hp; rfl
    · subst hp; rfl
  · obtain rfl := Option.some.inj hp; rfl

/-- INIT starts anew, whatever came before. -/
theorem initEnd {env : Env} {w w' : World} {b : Bool} (hf : fid w.rc = TOKEN_INIT) (h : realmRsi env w = some (w', b)) :
    b = true ∧ w'.mem = w.mem ∧ w'.att.realmLen = 0 ∧ w'.att.copied = 0 ∧ w'.att.ccaLen = 0 ∧
    ((w'.rc.regs 0 = 0 ∧ w'.att.state = .sign) ∨ (w'.rc.regs 0 = 4 ∧ w'.att.state ≠ .sign)) := by
  unfold realmRsi at h
  rw [hf] at h
  have h : rsiFinish (rsiTokenInit env w) = some (w', b) := h
  have fin : ∀ a : Att, a.realmLen = 0 ∧ a.copied = 0 ∧ a.ccaLen = 0 ∧ a.state ≠ .sign →
      rsiFinish ({ w with att := a }, ret w.rc RSI_ERROR_UNKNOWN) = some (w', b) →
      b = true ∧ w'.mem = w.mem ∧ w'.att.realmLen = 0 ∧ w'.att.copied = 0 ∧ w'.att.ccaLen = 0 ∧
      ((w'.rc.regs 0 = 0 ∧ w'.att.state = .sign) ∨ (w'.rc.regs 0 = 4 ∧ w'.att.state ≠ .sign)) := by
    rintro a ⟨a1, a2, a3, a4⟩ h
    obtain ⟨rfl, rfl⟩ := Prod.mk.inj (Option.some.inj h)
    exact ⟨rfl, rfl, a1, a2, a3, .inr ⟨rfl, a4⟩⟩
  unfold rsiTokenInit at h
  dsimp only at h
  cases hc : ctxInit env.attInit { w.att with realmLen := 0, copied := 0, ccaLen := 0 } with
  | none =>
    rw [hc] at h
    exact fin _ ⟨rfl, rfl, rfl, by simp⟩ h
  | some a =>
    rw [hc] at h
    have ha : a.realmLen = 0 ∧ a.copied = 0 ∧ a.ccaLen = 0 ∧ a.state ≠ .sign := by
      unfold ctxInit at hc
      rcases ite_or hc with ⟨h1, hc⟩ | ⟨_, hc⟩
      · obtain rfl := Option.some.inj hc
        exact ⟨rfl, rfl, rfl, by rw [h1]; decide⟩
      rcases ite_or hc with ⟨h1, hc⟩ | ⟨_, hc⟩
      · obtain rfl := Option.some.inj hc
        exact ⟨rfl, rfl, rfl, by simp⟩
      · simp at hc
    dsimp only at h
    by_cases hk : env.attCreate = true
    · rw [if_pos hk] at h
      obtain ⟨rfl, rfl⟩ := Prod.mk.inj (Option.some.inj h)
      exact ⟨rfl, rfl, ha.1, ha.2.1, ha.2.2.1, .inl ⟨rfl, rfl⟩⟩
    · rw [if_neg hk] at h
      exact fin a ha h

/-! ## The phases of a retrieval -/

/-- Where a retrieval stands, when the bytes `out` have been handed out and `src` is where tokens come from. -/
inductive Phase (src : List Byte → Prop) (out : List Byte) (done : Prop) (a : Att) : Prop
  | start (hs : (a.state = .sign ∧ a.realmLen = 0) ∨ a.state = .create) (hc : a.copied = 0) (ho : out = []) (hd : ¬ done)
  | giving (hs : a.state = .notStarted) (hr : a.realmLen ≠ 0) (hc : a.copied = out.length) (hn : out ≠ [])
      (ho : out = a.buf.take a.copied) (hl : a.copied + a.ccaLen = a.buf.length) (hr : a.ccaLen ≠ 0) (ht : src a.buf) (hd : ¬ done)
  | over (hs : a.state = .notStarted) (hr : a.realmLen = 0) (ho : src out) (hd : done)

theorem load_store (m : Nat → Byte) (a : Nat) (bs : List Byte) : load (store m a bs) a bs.length = bs := by
  unfold load
  apply List.ext_getElem
  · simp
  · intro i h1 h2
    rw [List.getElem_map, List.getElem_range]
    unfold store
    rw [dif_pos ⟨by omega, by omega⟩]
    congr 1
    omega

theorem chunk_other {t : Turn} (h : fid t.w.rc ≠ TOKEN_CONTINUE) : chunk t = [] := by
  unfold chunk
  rw [if_neg (fun x => h x.1)]

theorem chunk_none {t : Turn} (h0 : t.w'.rc.regs 0 ≠ 0) (h3 : t.w'.rc.regs 0 = 3 → t.w'.rc.regs 1 = 0) : chunk t = [] := by
  unfold chunk
  by_cases hc : fid t.w.rc = TOKEN_CONTINUE ∧ (t.w'.rc.regs 0 = 0 ∨ t.w'.rc.regs 0 = 3)
  · rw [if_pos hc, h3 (hc.2.resolve_left h0)]
    split <;> rfl
  · rw [if_neg hc]

theorem chunk_bytes {t : Turn} {pa : Nat} {bs : List Byte} (hf : fid t.w.rc = TOKEN_CONTINUE)
    (hr : t.w'.rc.regs 0 = 0 ∨ t.w'.rc.regs 0 = 3) (hw : t.env.walk (t.w.rc.regs 1) = .ram pa)
    (hm : t.w'.mem = store t.w.mem (pa + (t.w.rc.regs 2).toNat) bs) (hl : t.w'.rc.regs 1 = BitVec.ofNat 64 bs.length)
    (hlt : bs.length < 2 ^ 64) : chunk t = bs := by
  unfold chunk
  rw [if_pos ⟨hf, hr⟩, hw]
  dsimp only
  rw [hm, hl, BitVec.toNat_ofNat, Nat.mod_eq_of_lt hlt, load_store]

/-- A call that is not INIT moves the retrieval on. -/
theorem phase_step {src : List Byte → Prop} {out : List Byte} {done : Prop} {t : Turn} (hn : fid t.w.rc ≠ TOKEN_INIT)
    (h : realmRsi t.env t.w = some (t.w', t.b)) (hsrc : ∀ x, t.env.ccaToken = some x → src x)
    (hp : Phase src out done t.w.att) : Phase src (out ++ chunk t) (done ∨ Done t) t.w'.att := by
  by_cases hf : fid t.w.rc = TOKEN_CONTINUE
  · have quiet : ∀ {e : SignEnd}, t.w'.rc.regs 0 ≠ 0 → chunk t = [] → signLoop t.env.sign t.w.att = some (t.w'.att, e) →
        Phase src (out ++ chunk t) (done ∨ Done t) t.w'.att := by
      intro e h0 hc hs
      have hnd : ¬ Done t := fun x => h0 x.2
      rw [hc, List.append_nil]
      obtain ⟨q1, _, _, _, q5, q6⟩ := signLoop_cases hs
      cases hp with
      | start h1 h2 h3 h4 =>
        rcases q1 with q1 | ⟨_, _, n, q1⟩
        · rw [q1]; exact .start h1 h2 h3 (fun x => x.elim h4 hnd)
        · rw [q1]; exact .start (.inr rfl) h2 h3 (fun x => x.elim h4 hnd)
      | giving h1 h2 h3 h4 h5 h6 h7 h8 h9 =>
        rw [(q6 h2).1]; exact .giving h1 h2 h3 h4 h5 h6 h7 h8 (fun x => x.elim h9 hnd)
      | over h1 h2 h3 h4 =>
        rw [(q5 h2 (by rw [h1]; decide)).1]; exact .over h1 h2 h3 (.inl h4)
    cases contEnd hf h with
    | args h0 hm ha hb =>
      have h0' : t.w'.rc.regs 0 ≠ 0 := by rw [h0]; decide
      have hc := chunk_none h0' (fun x => absurd (h0.symm.trans x) (by decide))
      have hnd : ¬ Done t := fun x => h0' x.2
      rw [hc, List.append_nil, ha]
      cases hp with
      | start h1 h2 h3 h4 => exact .start h1 h2 h3 (fun x => x.elim h4 hnd)
      | giving h1 h2 h3 h4 h5 h6 h7 h8 h9 => exact .giving h1 h2 h3 h4 h5 h6 h7 h8 (fun x => x.elim h9 hnd)
      | over h1 h2 h3 h4 => exact .over h1 h2 h3 (.inl h4)
    | state h0 hm hb hs =>
      have h0' : t.w'.rc.regs 0 ≠ 0 := by rw [h0]; decide
      exact quiet h0' (chunk_none h0' (fun x => absurd (h0.symm.trans x) (by decide))) hs
    | none h0 h3 hm hs hne => exact quiet h0 (chunk_none h0 h3) hs
    | @bytes a1 a pa len hs hw hb hoff hpar hal hsize hcr hlen hmem h1 hend =>
      obtain ⟨q1, q2, _, _, q5, q6⟩ := signLoop_cases hs
      have hr0 : t.w'.rc.regs 0 = 0 ∨ t.w'.rc.regs 0 = 3 := by
        rcases hend with ⟨_, x, _⟩ | ⟨_, x, _⟩
        · exact .inr x
        · exact .inl x
      -- what has been handed out, and what is left
      have hinv : out = a.buf.take a.copied ∧ a.copied + a.ccaLen = a.buf.length ∧ src a.buf ∧ a.state = .notStarted ∧
          a.copied = out.length ∧ a.realmLen ≠ 0 ∧ ¬ done := by
        rcases hcr with ⟨hc, hst, tok, htok, ha⟩ | ⟨hc, ha⟩
        · cases hp with
          | start h1 h2 h3 h4 =>
            rw [ha, h3]
            refine ⟨by simp [hc], by simp [hc], hsrc _ htok, rfl, by simpa using hc, q2 rfl, h4⟩
          | giving h1 h2 h3 h4 h5 h6 h7 h8 h9 =>
            rw [(q6 h2).1] at hst; rw [h1] at hst; simp at hst
          | over h1 h2 h3 h4 =>
            exact absurd (q5 h2 (by rw [h1]; decide)).2 (by decide)
        · cases hp with
          | start h1 h2 h3 h4 =>
            exfalso
            rcases q1 with q1 | ⟨_, _, n, q1⟩
            · rw [q1] at hc; exact hc h2
            · rw [q1] at hc; exact hc h2
          | giving h1 h2 h3 h4 h5 h6 h7 h8 h9 =>
            rw [ha, (q6 h2).1]
            exact ⟨h5, h6, h8, h1, h3, h2, h9⟩
          | over h1 h2 h3 h4 =>
            exact absurd (q5 h2 (by rw [h1]; decide)).2 (by decide)
      obtain ⟨i1, i2, i3, i4, i5, i6, i7⟩ := hinv
      have hbl : ((a.buf.drop a.copied).take len).length = len := by
        rw [List.length_take, List.length_drop]; omega
      have hch : chunk t = (a.buf.drop a.copied).take len :=
        chunk_bytes hf hr0 hw hmem (by rw [hbl]; exact h1) (by rw [hbl]; have := (t.w.rc.regs 3).isLt; omega)
      have hout : out ++ chunk t = a.buf.take (a.copied + len) := by
        rw [hch, List.take_add, ← i1]
      rcases hend with ⟨e1, e2, e3⟩ | ⟨e1, e2, e3⟩
      · have hnd : ¬ Done t := fun x => absurd (e2.symm.trans x.2) (by decide)
        have hpos : 0 < len := by omega
        rw [e3]
        refine .giving i4 i6 ?_ ?_ hout ?_ ?_ i3 (fun x => x.elim i7 hnd)
        · rw [List.length_append, ← i5, hch, hbl]
        · intro x
          have : (out ++ chunk t).length = a.copied + len := by rw [List.length_append, ← i5, hch, hbl]
          rw [x] at this
          simp at this
          omega
        · show a.copied + len + (a.ccaLen - len) = a.buf.length
          omega
        · show a.ccaLen - len ≠ 0
          omega
      · rw [e3]
        refine .over i4 rfl ?_ (.inr ⟨hf, e2⟩)
        rw [hout, e1, i2, List.take_length]
        exact i3
  · rw [other_att hn hf h, chunk_other hf, List.append_nil]
    have hnd : ¬ Done t := fun x => hf x.1
    cases hp with
    | start h1 h2 h3 h4 => exact .start h1 h2 h3 (fun x => x.elim h4 hnd)
    | giving h1 h2 h3 h4 h5 h6 h7 h8 h9 => exact .giving h1 h2 h3 h4 h5 h6 h7 h8 (fun x => x.elim h9 hnd)
    | over h1 h2 h3 h4 => exact .over h1 h2 h3 (.inl h4)

theorem phase_mono {src src' : List Byte → Prop} {out : List Byte} {d d' : Prop} {a : Att} (hs : ∀ x, src x → src' x)
    (hd : d ↔ d') (h : Phase src out d a) : Phase src' out d' a := by
  cases h with
  | start h1 h2 h3 h4 => exact .start h1 h2 h3 (fun x => h4 (hd.2 x))
  | giving h1 h2 h3 h4 h5 h6 h7 h8 h9 => exact .giving h1 h2 h3 h4 h5 h6 h7 (hs _ h8) (fun x => h9 (hd.2 x))
  | over h1 h2 h3 h4 => exact .over h1 h2 (hs _ h3) (hd.1 h4)

theorem chunks_snoc (ts : List Turn) (t : Turn) : chunks (ts ++ [t]) = chunks ts ++ chunk t := by
  unfold chunks
  rw [List.flatMap_append, List.flatMap_cons, List.flatMap_nil, List.append_nil]

theorem trace_phase {a a' : Att} {ts : List Turn} (ht : Trace a ts a') (hn : ∀ t ∈ ts, fid t.w.rc ≠ TOKEN_INIT)
    (h0 : a.state = .sign ∧ a.realmLen = 0 ∧ a.copied = 0) :
    Phase (fun x => ∃ t ∈ ts, t.env.ccaToken = some x) (chunks ts) (∃ t ∈ ts, Done t) a' := by
  induction ht with
  | nil => exact .start (.inl ⟨h0.1, h0.2.1⟩) h0.2.2 rfl (by simp)
  | @snoc ts x t _ hx hr ih =>
    have hp := ih (fun t ht => hn t (by simp [ht]))
    rw [← hx] at hp
    have hp := phase_mono (src' := fun x => ∃ u ∈ ts ++ [t], u.env.ccaToken = some x) (d' := ∃ t ∈ ts, Done t)
      (fun x ⟨u, hu, hk⟩ => ⟨u, by simp [hu], hk⟩) Iff.rfl hp
    have := phase_step (hn t (by simp)) hr (fun x hx => ⟨t, by simp, hx⟩) hp
    rw [← chunks_snoc] at this
    refine phase_mono (fun _ => id) ?_ this
    constructor
    · rintro (⟨u, hu, hd⟩ | hd)
      · exact ⟨u, by simp [hu], hd⟩
      · exact ⟨t, by simp, hd⟩
    · rintro ⟨u, hu, hd⟩
      rcases List.mem_append.1 hu with hu | hu
      · exact .inl ⟨u, hu, hd⟩
      · obtain rfl := List.mem_singleton.1 hu; exact .inr hd

theorem trace_split {a a' : Att} {pre post : List Turn} (ht : Trace a (pre ++ post) a') :
    ∃ x, Trace a pre x ∧ Trace x post a' := by
  generalize hts : pre ++ post = ts at ht
  induction ht generalizing pre post with
  | nil =>
    obtain ⟨rfl, rfl⟩ := List.append_eq_nil_iff.1 hts
    exact ⟨_, .nil, .nil⟩
  | @snoc ts x t htr hx hr ih =>
    rcases List.eq_nil_or_concat post with rfl | ⟨q, u, rfl⟩
    · rw [List.append_nil] at hts
      subst hts
      exact ⟨_, .snoc htr hx hr, .nil⟩
    · rw [List.concat_eq_append, ← List.append_assoc] at hts
      obtain ⟨h1, h2⟩ := List.append_inj' hts rfl
      obtain ⟨y, hy1, hy2⟩ := ih h1
      obtain rfl := List.singleton_inj.1 h2
      refine ⟨y, hy1, ?_⟩
      rw [List.concat_eq_append]
      exact .snoc hy2 hx hr

/-- Nothing to sign and nothing to hand out. -/
def IdleAtt (a : Att) : Prop := a.realmLen = 0 ∧ a.state ≠ .sign

theorem idle_cont {t : Turn} (hi : IdleAtt t.w.att) (hf : fid t.w.rc = TOKEN_CONTINUE)
    (h : realmRsi t.env t.w = some (t.w', t.b)) : NoEffect t := by
  have bad : ∀ {a' : Att} {e : SignEnd}, signLoop t.env.sign t.w.att = some (a', e) → a' = t.w.att ∧ e = .badState :=
    fun hs => (signLoop_cases hs).2.2.2.2.1 hi.1 hi.2
  cases contEnd hf h with
  | args h0 hm ha hb => exact ⟨.inl h0, hm, ha, hb⟩
  | state h0 hm hb hs => exact ⟨.inr h0, hm, (bad hs).1, hb⟩
  | none h0 h3 hm hs hne => exact absurd (bad hs).2 hne
  | bytes hs => exact absurd (bad hs).2 (by decide)

theorem idle_trace {a a' : Att} {ts : List Turn} (ht : Trace a ts a') (hi : IdleAtt a)
    (hn : ∀ t ∈ ts, fid t.w.rc = TOKEN_INIT → t.w'.rc.regs 0 ≠ 0) :
    IdleAtt a' ∧ ∀ t ∈ ts, fid t.w.rc = TOKEN_CONTINUE → NoEffect t := by
  induction ht with
  | nil => exact ⟨hi, by simp⟩
  | @snoc ts x t _ hx hr ih =>
    obtain ⟨i1, i2⟩ := ih (fun t ht => hn t (by simp [ht]))
    rw [← hx] at i1
    have hall : fid t.w.rc = TOKEN_CONTINUE → NoEffect t := fun hf => idle_cont i1 hf hr
    refine ⟨?_, fun u hu hf => ?_⟩
    · by_cases hf : fid t.w.rc = TOKEN_CONTINUE
      · rw [(hall hf).2.2.1]; exact i1
      · by_cases hf2 : fid t.w.rc = TOKEN_INIT
        · obtain ⟨_, _, h1, _, _, h2⟩ := initEnd hf2 hr
          exact ⟨h1, (h2.resolve_left (fun x => hn t (by simp) hf2 x.1)).2⟩
        · rw [other_att hf2 hf hr]; exact i1
    · rcases List.mem_append.1 hu with hu | hu
      · exact i2 u hu hf
      · obtain rfl := List.mem_singleton.1 hu; exact hall hf

/-! ## The theorems -/

/-- **C34.**  After a successful INIT, and as long as INIT is not called again: the bytes handed out by all calls, one
after the other, are the beginning of one token that was generated; a proper beginning as long as no call has returned
SUCCESS.  The call that returns SUCCESS completes the token, and every later call of CONTINUE is refused and changes
nothing.  For every sequence of realm calls, every buffer size and offset, every way signing is interrupted, and
everything the realm and the host do in between. -/
theorem C34_in_order {env : Env} {w0 w1 : World} {b : Bool} (hf : fid w0.rc = TOKEN_INIT)
    (h0 : realmRsi env w0 = some (w1, b)) (hs : w1.rc.regs 0 = 0) {ts : List Turn} {a : Att} (ht : Trace w1.att ts a)
    (hn : ∀ t ∈ ts, fid t.w.rc ≠ TOKEN_INIT) :
    (chunks ts = [] ∨ ∃ token, (∃ t ∈ ts, t.env.ccaToken = some token) ∧ chunks ts <+: token ∧
      ((∀ t ∈ ts, ¬ Done t) → (chunks ts).length < token.length)) ∧
    (∀ pre t post, ts = pre ++ t :: post → Done t →
      (∃ u ∈ pre ++ [t], u.env.ccaToken = some (chunks (pre ++ [t]))) ∧
      (∀ u ∈ post, fid u.w.rc = TOKEN_CONTINUE → NoEffect u)) := by
  obtain ⟨_, _, r1, r2, _, r3⟩ := initEnd hf h0
  have hsign : w1.att.state = .sign := (r3.resolve_right (fun x => absurd (x.1.symm.trans hs) (by decide))).2
  constructor
  · cases trace_phase ht hn ⟨hsign, r1, r2⟩ with
    | start _ _ ho _ => exact .inl ho
    | giving h1 h2 h3 h4 h5 h6 h7 h8 h9 =>
      refine .inr ⟨a.buf, h8, ?_, fun _ => by omega⟩
      rw [h5]; exact List.take_prefix _ _
    | over h1 h2 h3 h4 =>
      obtain ⟨t, ht1, ht2⟩ := h4
      exact .inr ⟨chunks ts, h3, List.prefix_refl _, fun x => absurd ht2 (x t ht1)⟩
  · intro pre t post hts hd
    subst hts
    rw [show pre ++ t :: post = (pre ++ [t]) ++ post by simp] at ht
    obtain ⟨x, ht1, ht2⟩ := trace_split ht
    have hn1 : ∀ u ∈ pre ++ [t], fid u.w.rc ≠ TOKEN_INIT := fun u hu => hn u (by simp at hu ⊢; tauto)
    have hn2 : ∀ u ∈ post, fid u.w.rc ≠ TOKEN_INIT := fun u hu => hn u (by simp [hu])
    cases trace_phase ht1 hn1 ⟨hsign, r1, r2⟩ with
    | start _ _ _ hnd => exact absurd ⟨t, by simp, hd⟩ hnd
    | giving _ _ _ _ _ _ _ _ hnd => exact absurd ⟨t, by simp, hd⟩ hnd
    | over h1 h2 h3 _ =>
      exact ⟨h3, (idle_trace ht2 ⟨h2, by rw [h1]; decide⟩ (fun u hu hf => absurd hf (hn2 u hu))).2⟩

/-- **C34.**  Until INIT has succeeded, CONTINUE is refused and changes nothing: for a new REC, and after an INIT that
failed. -/
theorem C34_refused {a a' : Att} {ts : List Turn} (ht : Trace a ts a') (h0 : a.realmLen = 0 ∧ a.state = .notStarted)
    (hn : ∀ t ∈ ts, fid t.w.rc = TOKEN_INIT → t.w'.rc.regs 0 ≠ 0) :
    ∀ t ∈ ts, fid t.w.rc = TOKEN_CONTINUE → NoEffect t :=
  (idle_trace ht ⟨h0.1, by rw [h0.2]; decide⟩ hn).2

/-- **C34.**  The same after an INIT that failed, whatever was before. -/
theorem C34_failed_init {env : Env} {w0 w1 : World} {b : Bool} (hf : fid w0.rc = TOKEN_INIT)
    (h0 : realmRsi env w0 = some (w1, b)) (hs : w1.rc.regs 0 ≠ 0) {ts : List Turn} {a : Att} (ht : Trace w1.att ts a)
    (hn : ∀ t ∈ ts, fid t.w.rc = TOKEN_INIT → t.w'.rc.regs 0 ≠ 0) :
    ∀ t ∈ ts, fid t.w.rc = TOKEN_CONTINUE → NoEffect t := by
  obtain ⟨_, _, r1, _, _, r3⟩ := initEnd hf h0
  exact (idle_trace ht ⟨r1, (r3.resolve_left (fun x => hs x.1)).2⟩ hn).2

/-- **C34.**  A call of CONTINUE writes only to the window of the page it names, a protected one, and not beyond the
number of bytes it returns in X1; INIT writes nothing. -/
theorem C34_window {env : Env} {w w' : World} {b : Bool} (hf : fid w.rc = TOKEN_CONTINUE ∨ fid w.rc = TOKEN_INIT)
    (hb : 32 ≤ w.rc.ipaBits ∧ w.rc.ipaBits ≤ 52) (h : realmRsi env w = some (w', b)) (p : Nat) (hp : w'.mem p ≠ w.mem p) :
    ∃ pa, env.walk (w.rc.regs 1) = .ram pa ∧ (w.rc.regs 1).toNat % 4096 = 0 ∧ (w.rc.regs 1).toNat < 2 ^ (w.rc.ipaBits - 1) ∧
      (w.rc.regs 2).toNat + (w.rc.regs 3).toNat ≤ 4096 ∧ pa + (w.rc.regs 2).toNat ≤ p ∧
      p < pa + (w.rc.regs 2).toNat + (w'.rc.regs 1).toNat ∧ (w'.rc.regs 1).toNat ≤ (w.rc.regs 3).toNat := by
  rcases hf with hf | hf
  · cases contEnd hf h with
    | args h0 hm => rw [hm] at hp; exact absurd rfl hp
    | state h0 hm => rw [hm] at hp; exact absurd rfl hp
    | none h0 h3 hm => rw [hm] at hp; exact absurd rfl hp
    | @bytes a1 a pa len hs hw hb' hoff hpar hal hsize hcr hlen hmem h1 hend =>
      have hx1 : (w'.rc.regs 1).toNat = len := by
        rw [h1, BitVec.toNat_ofNat]
        have := (w.rc.regs 3).isLt
        omega
      have hbl : ((a.buf.drop a.copied).take len).length ≤ len := by
        rw [List.length_take]; omega
      refine ⟨pa, hw, ?_, (inPar_iff hb _).1 hpar, hoff, ?_, ?_, by omega⟩
      · exact (aligned_iff _).1 hal
      · by_contra hc
        rw [hmem, store_outside (.inl (by omega))] at hp
        exact hp rfl
      · by_contra hc
        rw [hmem, store_outside (.inr (by omega))] at hp
        exact hp rfl
  · rw [(initEnd hf h).2.1] at hp; exact absurd rfl hp

/-! ### Every run of a REC is such a sequence -/

theorem externalAbort_att {w w' : World} {hw : Hw} (h : externalAbort w hw = some w') : w'.att = w.att :=
  (externalAbort_some h).2.2.2.2.2.2

/-- An exit that is not a realm call leaves the token alone. -/
theorem syncExit_att {env : Env} {w w' : World} {hw : Hw} {b : Bool} (hsmc : ec hw.esr ≠ EC_SMC)
    (h : syncExit env w hw = some (w', b)) : w'.att = w.att := by
  unfold syncExit at h
  rcases ite_or h with ⟨_, h⟩ | ⟨_, h⟩
  · obtain ⟨rfl, _⟩ := Prod.mk.inj (Option.some.inj h); rfl
  rcases ite_or h with ⟨_, h⟩ | ⟨_, h⟩
  · obtain ⟨r, hr, h⟩ := map_some h
    obtain ⟨rfl, _⟩ := Prod.mk.inj h; rfl
  rcases ite_or h with ⟨hc, h⟩ | ⟨_, h⟩
  · exact absurd hc hsmc
  rcases ite_or h with ⟨_, h⟩ | ⟨_, h⟩
  · obtain ⟨⟨w1, b1⟩, hp, h⟩ := map_some h
    obtain ⟨rfl, _⟩ := Prod.mk.inj h
    show w1.att = w.att
    unfold sysregTrap at hp
    rcases ite_or hp with ⟨_, hp⟩ | ⟨_, hp⟩
    · simp at hp
    have icc : ∀ {w1 : World}, iccTrap w hw.esr = some w1 → w1.att = w.att := by
      intro w1 h
      unfold iccTrap at h
      dsimp only at h
      rcases ite_or h with ⟨_, h⟩ | ⟨_, h⟩
      · obtain ⟨v, hv, rfl⟩ := map_some h; rfl
      · simp at h
    rcases ite_or hp with ⟨_, hp⟩ | ⟨_, hp⟩
    · obtain ⟨w2, h2, hp⟩ := map_some hp
      obtain ⟨rfl, _⟩ := Prod.mk.inj hp
      unfold idTrap at h2
      rcases ite_or h2 with ⟨_, h2⟩ | ⟨_, h2⟩
      · simp at h2
      rcases ite_or h2 with ⟨_, h2⟩ | ⟨_, h2⟩
      · obtain rfl := Option.some.inj h2; rfl
      · obtain ⟨r, hr, rfl⟩ := map_some h2; rfl
    rcases ite_or hp with ⟨_, hp⟩ | ⟨_, hp⟩
    · obtain ⟨w2, h2, hp⟩ := map_some hp
      obtain ⟨rfl, _⟩ := Prod.mk.inj hp
      exact icc h2
    rcases ite_or hp with ⟨_, hp⟩ | ⟨_, hp⟩
    · obtain ⟨w2, h2, hp⟩ := map_some hp
      obtain ⟨rfl, _⟩ := Prod.mk.inj hp
      exact icc h2
    rcases ite_or hp with ⟨_, hp⟩ | ⟨_, hp⟩
    · obtain ⟨r, hr, hp⟩ := map_some hp
      obtain ⟨rfl, _⟩ := Prod.mk.inj hp; rfl
    · obtain ⟨rfl, _⟩ := Prod.mk.inj (Option.some.inj hp); rfl
  rcases ite_or h with ⟨_, h⟩ | ⟨_, h⟩
  · unfold instrAbort at h
    dsimp only at h
    rcases ite_or h with ⟨_, h⟩ | ⟨_, h⟩
    · obtain ⟨w1, h1, h⟩ := map_some h
      obtain ⟨rfl, _⟩ := Prod.mk.inj h
      exact externalAbort_att h1
    obtain ⟨bad, _, h⟩ := bind_some h
    rcases ite_or h with ⟨_, h⟩ | ⟨_, h⟩
    · obtain ⟨r, hr, h⟩ := map_some h
      obtain ⟨rfl, _⟩ := Prod.mk.inj h; rfl
    rcases ite_or h with ⟨_, h⟩ | ⟨_, h⟩ <;> obtain ⟨rfl, _⟩ := Prod.mk.inj (Option.some.inj h) <;> rfl
  rcases ite_or h with ⟨_, h⟩ | ⟨_, h⟩
  · unfold dataAbort at h
    dsimp only at h
    rcases ite_or h with ⟨_, h⟩ | ⟨_, h⟩
    · obtain ⟨w1, h1, h⟩ := map_some h
      obtain ⟨rfl, _⟩ := Prod.mk.inj h
      exact externalAbort_att h1
    obtain ⟨bad, _, h⟩ := bind_some h
    rcases ite_or h with ⟨_, h⟩ | ⟨_, h⟩
    · obtain ⟨r, hr, h⟩ := map_some h
      obtain ⟨rfl, _⟩ := Prod.mk.inj h; rfl
    rcases ite_or h with ⟨_, h⟩ | ⟨_, h⟩
    · obtain ⟨rfl, _⟩ := Prod.mk.inj (Option.some.inj h); rfl
    · obtain ⟨v, _, h⟩ := map_some h
      obtain ⟨rfl, _⟩ := Prod.mk.inj h; rfl
  rcases ite_or h with ⟨_, h⟩ | ⟨_, h⟩
  · obtain ⟨w1, hp, h⟩ := map_some h
    obtain ⟨rfl, _⟩ := Prod.mk.inj h
    unfold simdTrap at hp
    rcases ite_or hp with ⟨_, hp⟩ | ⟨_, hp⟩
    · obtain ⟨r, hr, rfl⟩ := map_some hp; rfl
    rcases ite_or hp with ⟨_, hp⟩ | ⟨_, hp⟩
    · obtain ⟨r, hr, rfl⟩ := map_some hp; rfl
    rcases ite_or hp with ⟨_, hp⟩ | ⟨_, hp⟩
    · simp at hp
    · obtain rfl := Option.some.inj hp; rfl
  · obtain ⟨rfl, _⟩ := Prod.mk.inj (Option.some.inj h); rfl

/-- The realm call of an event. -/
def Spec.CallOf (t : Turn) (e : Ev) : Prop :=
  e.exc = .sync ∧ ec e.hw.esr = EC_SMC ∧ t.env = e.env ∧ t.w.rc.regs = e.regs ∧ t.w.mem = e.mem

theorem turn_of {e : Ev} {w w1 w2 w' : World} {b : Bool} (h : realmRsi e.env w1 = some (w2, b)) (hx : e.exc = .sync)
    (hs : ec e.hw.esr = EC_SMC) (hr : w1.rc.regs = e.regs) (hm : w1.mem = e.mem) (ha : w1.att = w.att) (hw : w'.att = w2.att) :
    ∃ t : Turn, CallOf t e ∧ t.w.att = w.att ∧ realmRsi t.env t.w = some (t.w', t.b) ∧ w'.att = t.w'.att :=
  ⟨⟨e.env, w1, w2, b⟩, ⟨hx, hs, rfl, hr, hm⟩, ha, h, hw⟩

theorem iter_trace {w w' : World} {e : Ev} {b : Bool} (h : iter w e = some (w', b)) :
    w'.att = w.att ∨ ∃ t : Turn, CallOf t e ∧ t.w.att = w.att ∧ realmRsi t.env t.w = some (t.w', t.b) ∧ w'.att = t.w'.att := by
  unfold iter at h
  dsimp only at h
  rcases ite_or h with ⟨_, h⟩ | ⟨_, h⟩
  · obtain ⟨rfl, _⟩ := Prod.mk.inj (Option.some.inj h)
    exact .inl rfl
  · unfold handleExit at h
    cases hx : e.exc with
    | sync =>
      rw [hx] at h
      obtain ⟨⟨w1, b1⟩, hp, h⟩ := map_some h
      have hatt : w'.att = w1.att := by
        cases b1 with
        | true => obtain ⟨rfl, _⟩ := Prod.mk.inj h; rfl
        | false => obtain ⟨rfl, _⟩ := Prod.mk.inj h; rfl
      by_cases hsmc : ec e.hw.esr = EC_SMC
      · unfold syncExit at hp
        rw [if_neg (by rw [hsmc]; decide), if_neg (by rw [hsmc]; decide), if_pos hsmc] at hp
        exact .inr (turn_of hp hx hsmc rfl rfl rfl hatt)
      · have hq := syncExit_att hsmc hp
        exact .inl (hatt.trans hq)
    | irq => rw [hx] at h; obtain ⟨rfl, _⟩ := Prod.mk.inj (Option.some.inj h); exact .inl rfl
    | fiq => rw [hx] at h; obtain ⟨rfl, _⟩ := Prod.mk.inj (Option.some.inj h); exact .inl rfl
    | serror =>
      rw [hx] at h
      obtain ⟨w1, hp, h⟩ := map_some h
      obtain ⟨rfl, _⟩ := Prod.mk.inj h
      unfold serrorExit at hp
      rcases ite_or hp with ⟨_, hp⟩ | ⟨_, hp⟩
      · simp at hp
      rcases ite_or hp with ⟨_, hp⟩ | ⟨_, hp⟩
      · simp at hp
      dsimp only at hp
      rcases ite_or hp with ⟨_, hp⟩ | ⟨_, hp⟩
      · obtain rfl := Option.some.inj hp; exact .inl rfl
      rcases ite_or hp with ⟨_, hp⟩ | ⟨_, hp⟩
      · obtain rfl := Option.some.inj hp; exact .inl rfl
      · simp at hp
    | other => rw [hx] at h; obtain ⟨rfl, _⟩ := Prod.mk.inj (Option.some.inj h); exact .inl rfl

theorem trace_append {a x y : Att} {ts us : List Turn} (h1 : Trace a ts x) (h2 : Trace x us y) : Trace a (ts ++ us) y := by
  induction h2 with
  | nil => simpa using h1
  | snoc _ hx hr ih =>
    rw [← List.append_assoc]
    exact .snoc ih hx hr

theorem loop_trace {es : List Ev} {w w' : World} {b : Bool} (h : loop es w = some (w', b)) :
    ∃ ts, Trace w.att ts w'.att ∧ ∀ t ∈ ts, ∃ e ∈ es, CallOf t e := by
  induction es generalizing w with
  | nil =>
    obtain ⟨rfl, _⟩ := Prod.mk.inj (Option.some.inj h)
    exact ⟨[], .nil, by simp⟩
  | cons e es ih =>
    rw [loop] at h
    obtain ⟨⟨w1, b1⟩, hp, h⟩ := bind_some h
    have h1 : ∃ ts, Trace w.att ts w1.att ∧ ∀ t ∈ ts, CallOf t e := by
      rcases iter_trace hp with hq | ⟨t, hc, ha, hr, hq⟩
      · rw [hq]; exact ⟨[], .nil, by simp⟩
      · rw [hq]; exact ⟨[t], .snoc .nil ha hr, by simpa using hc⟩
    obtain ⟨ts1, t1, t2⟩ := h1
    cases b1 with
    | false =>
      obtain ⟨rfl, _⟩ := Prod.mk.inj (Option.some.inj h)
      exact ⟨ts1, t1, fun t ht => ⟨e, by simp, t2 t ht⟩⟩
    | true =>
      obtain ⟨ts2, u1, u2⟩ := ih h
      refine ⟨ts1 ++ ts2, trace_append t1 u1, fun t ht => ?_⟩
      rcases List.mem_append.1 ht with ht | ht
      · exact ⟨e, by simp, t2 t ht⟩
      · obtain ⟨e', he, hc⟩ := u2 t ht
        exact ⟨e', by simp [he], hc⟩

/-- **C34.**  REC_ENTER changes what RMM keeps for the token only through the realm calls made while the REC runs: the
theorems above are about every history of a REC. -/
theorem C34_run {c : Call} {w : World} {o : Out} (h : recEnter c w = some o) :
    ∃ ts, Trace w.att ts o.w.att ∧ ∀ t ∈ ts, ∃ e ∈ c.evs, CallOf t e := by
  have same : ∀ {x : Att}, x = w.att → ∃ ts, Trace w.att ts x ∧ ∀ t ∈ ts, ∃ e ∈ c.evs, CallOf t e := by
    intro x hx; rw [hx]; exact ⟨[], .nil, by simp⟩
  have path : ∀ {r1 r2 r3 : Rec} {p : World × Bool}, Path c w r1 r2 r3 p → p.1.att = w.att := by
    intro r1 r2 r3 p hp
    obtain ⟨w1, b⟩ := p
    cases b with
    | true => exact (completeHostCall_true hp.call).2.2.2.1
    | false =>
      obtain ⟨_, _, _, l, _, _, hab⟩ := completeHostCall_false hp.call
      unfold emulateS2Abort at hab
      rcases ite_or hab with ⟨_, hab⟩ | ⟨_, hab⟩
      · obtain rfl := Option.some.inj hab; rfl
      · simp at hab
  rcases recEnter_cases h with ⟨_, _, h1, _⟩ | ⟨_, _, _, _, h1, _⟩ | ⟨_, _, _, _, r1, h1, h2, h3⟩ |
    ⟨r1, r2, r3, ⟨w1, b⟩, hp, ⟨hb, h1⟩ | ⟨hb, h1⟩⟩
  · rw [h1]; exact same rfl
  · rw [h1]; exact same rfl
  · rw [h1]; exact same rfl
  · rw [h1, leave_w]; exact same (path hp)
  · obtain ⟨w2, hloop, rfl⟩ := runRec_some h1
    rw [leave_w]
    obtain ⟨ts, t1, t2⟩ := loop_trace hloop
    refine ⟨ts, ?_, t2⟩
    rw [← path hp]
    exact t1

/-! ## Concrete cases -/

namespace Demo

/-- A token of 10 bytes. -/
def token : List Byte := (List.range 10).map (BitVec.ofNat 8 ·)

/-- Signing takes two rounds; there is an interrupt after the first one if `irq`. -/
def tokEnv (irq : Bool) : Env :=
  { env with sign := [(.inProgress, irq), (.done 7, false)], ccaToken := some token }

def regs3 (f : W) (off size : W) : Nat → W := fun i =>
  if i = 0 then f else if i = 1 then 0x1000 else if i = 2 then off else if i = 3 then size else 0

def tokW (f : W) (off size : W) (a : Att) : World := { world with rc := { rc with regs := regs3 f off size }, att := a }

def turnD (e : Env) (w : World) : Turn :=
  ⟨e, w, ((realmRsi e w).map (·.1)).getD w, ((realmRsi e w).map (·.2)).getD false⟩

theorem turnD_ok {e : Env} {w : World} (h : (realmRsi e w).isSome = true) :
    realmRsi (turnD e w).env (turnD e w).w = some ((turnD e w).w', (turnD e w).b) := by
  unfold turnD
  dsimp only
  cases hq : realmRsi e w with
  | none => rw [hq] at h; simp at h
  | some p => rfl

def init : Turn := turnD (tokEnv false) (tokW 0xC4000194 0 0 world.att)
/-- Interrupted while signing. -/
def t1 : Turn := turnD (tokEnv true) (tokW 0xC4000195 8 6 init.w'.att)
def t2 : Turn := turnD (tokEnv false) (tokW 0xC4000195 8 6 t1.w'.att)
/-- A buffer of size 0. -/
def t3 : Turn := turnD (tokEnv false) (tokW 0xC4000195 0 0 t2.w'.att)
def t4 : Turn := turnD (tokEnv false) (tokW 0xC4000195 100 50 t3.w'.att)
def t5 : Turn := turnD (tokEnv false) (tokW 0xC4000195 100 50 t4.w'.att)

end Demo

theorem Demo.trace : ∃ a, Trace Demo.init.w'.att [Demo.t1, Demo.t2, Demo.t3, Demo.t4, Demo.t5] a := by
  have h0 := Trace.nil (a := Demo.init.w'.att)
  have h1 := Trace.snoc h0 (t := Demo.t1) rfl (Demo.turnD_ok (by decide +kernel))
  have h2 := Trace.snoc h1 (t := Demo.t2) rfl (Demo.turnD_ok (by decide +kernel))
  have h3 := Trace.snoc h2 (t := Demo.t3) rfl (Demo.turnD_ok (by decide +kernel))
  have h4 := Trace.snoc h3 (t := Demo.t4) rfl (Demo.turnD_ok (by decide +kernel))
  exact ⟨_, Trace.snoc h4 (t := Demo.t5) rfl (Demo.turnD_ok (by decide +kernel))⟩

/-- The hypotheses of `C34_in_order` are met by a retrieval in pieces of 6 and 4 bytes, with an interrupt. -/
example : realmRsi Demo.init.env Demo.init.w = some (Demo.init.w', Demo.init.b) ∧ Demo.init.w'.rc.regs 0 = 0 ∧
    (∃ a, Trace Demo.init.w'.att [Demo.t1, Demo.t2, Demo.t3, Demo.t4, Demo.t5] a) ∧
    [Demo.t1, Demo.t2, Demo.t3, Demo.t4, Demo.t5].map (fun t => (t.w'.rc.regs 0, chunk t)) =
      [(3, []), (3, Demo.token.take 6), (3, []), (0, Demo.token.drop 6), (2, [])] :=
  ⟨Demo.turnD_ok (by decide +kernel), by decide +kernel, Demo.trace, by decide +kernel⟩

/-- The hypotheses of `C34_refused` are met by a call before INIT; `C34_window` by the second call above. -/
example : (realmRsi (Demo.tokEnv false) (Demo.tokW 0xC4000195 8 6 Demo.world.att)).map (fun p => p.1.rc.regs 0) = some 2 ∧
    Demo.t2.w'.mem 0x80001009 ≠ Demo.t2.w.mem 0x80001009 := by decide +kernel

end Verif.Run
