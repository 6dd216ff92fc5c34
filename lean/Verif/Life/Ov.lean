import Verif.Life.Model

/-!
# Overlays: what commands under way have added to the memory

`ov T s` is the memory `s` with the changes `T` of commands that are under way.  An operation
that does not meet these changes does the same in `ov T s` as in `s`.
-/

namespace Verif.Life

open Rmm
open Atom (post kept extra)

/-- What commands under way have done to the memory: granules in other states (with other
contents), references not yet dropped, VMIDs reserved. -/
structure Ov where
  g : Nat → Option (GSt × Content)
  rc : Nat → Nat
  vm : Nat → Bool

def ovSt (T : Ov) (f : Nat → GSt) : Nat → GSt := fun a => match T.g a with | some x => x.1 | none => f a
def ovMem (T : Ov) (f : Nat → Content) : Nat → Content := fun a => match T.g a with | some x => x.2 | none => f a
def ovRc (T : Ov) (f : Nat → Nat) : Nat → Nat := fun a => f a + T.rc a
def ovVm (T : Ov) (f : Nat → Bool) : Nat → Bool := fun v => f v || T.vm v

/-- The memory `s` with the changes `T`. -/
def ov (T : Ov) (s : State) : State :=
  { st := ovSt T s.st, rc := ovRc T s.rc, mem := ovMem T s.mem, pas := s.pas, vmid := ovVm T s.vmid }

/-- An outcome with the changes `T`. -/
def ovOut (T : Ov) : Out → Out
  | none => none
  | some (s, ret) => some (ov T s, ret)

section
variable {T : Ov} {s : State}

theorem ovSt_none (f : Nat → GSt) {a : Nat} (h : T.g a = none) : ovSt T f a = f a := by simp [ovSt, h]
theorem ovMem_none (f : Nat → Content) {a : Nat} (h : T.g a = none) : ovMem T f a = f a := by simp [ovMem, h]
theorem ovRc_zero (f : Nat → Nat) {a : Nat} (h : T.rc a = 0) : ovRc T f a = f a := by simp [ovRc, h]

theorem ovSt_upd (f : Nat → GSt) {a : Nat} (v : GSt) (h : T.g a = none) :
    upd (ovSt T f) a v = ovSt T (upd f a v) := by
  funext x; unfold upd ovSt; by_cases hx : x = a
  · subst hx; simp [h]
  · simp [hx]

theorem ovMem_upd (f : Nat → Content) {a : Nat} (v : Content) (h : T.g a = none) :
    upd (ovMem T f) a v = ovMem T (upd f a v) := by
  funext x; unfold upd ovMem; by_cases hx : x = a
  · subst hx; simp [h]
  · simp [hx]

theorem ovRc_upd (f : Nat → Nat) {a : Nat} (v : Nat) (h : T.rc a = 0) :
    upd (ovRc T f) a v = ovRc T (upd f a v) := by
  funext x; unfold upd ovRc; by_cases hx : x = a
  · subst hx; simp [h]
  · simp [hx]

theorem getTab_ov {a : Nat} (h : T.g a = none) : getTab (ov T s) a = getTab s a := by
  simp [getTab, ov, ovMem_none _ h]
theorem getRd_ov {a : Nat} (h : T.g a = none) : getRd (ov T s) a = getRd s a := by
  simp [getRd, ov, ovMem_none _ h]
theorem getRec_ov {a : Nat} (h : T.g a = none) : getRec (ov T s) a = getRec s a := by
  simp [getRec, ov, ovMem_none _ h]
theorem tabOf_ov {a : Nat} (h : T.g a = none) : tabOf (ov T s) a = tabOf s a := by
  simp [tabOf, getTab_ov h]
theorem rdOf_ov {a : Nat} (h : T.g a = none) : rdOf (ov T s) a = rdOf s a := by
  simp [rdOf, getRd_ov h]
theorem recOf_ov {a : Nat} (h : T.g a = none) : recOf (ov T s) a = recOf s a := by
  simp [recOf, getRec_ov h]
theorem lk_ov {P : Plat} {a : Nat} {e : GSt} (h : T.g a = none) : lk P (ov T s) a e = lk P s a e := by
  simp [lk, ov, ovSt_none _ h]

/-! ## The end of a walking command -/

variable {P : Plat}

theorem rttCreateSt_ov {rtt wg wi d dp dc : Nat} {t : Nat → Entry} {e : Entry} (h1 : T.g rtt = none)
    (h2 : T.g wg = none) (h3 : T.rc rtt = 0) (h4 : T.rc wg = 0) :
    rttCreateSt (ov T s) rtt wg wi t e d dp dc = ov T (rttCreateSt s rtt wg wi t e d dp dc) := by
  simp only [rttCreateSt, ov, ovSt_upd _ _ h1, ovMem_upd _ _ h1, ovMem_upd _ _ h2, ovRc_upd _ _ h3,
    ovRc_upd _ _ h4, ovRc_zero _ h3, ovRc_zero _ h4]

theorem dropTableSt_ov {c wg wi dp dc : Nat} {t : Nat → Entry} {e : Entry} (h1 : T.g c = none)
    (h2 : T.g wg = none) (h3 : T.rc c = 0) (h4 : T.rc wg = 0) :
    dropTableSt (ov T s) c wg wi t e dp dc = ov T (dropTableSt s c wg wi t e dp dc) := by
  simp only [dropTableSt, ov, ovSt_upd _ _ h1, ovMem_upd _ _ h1, ovMem_upd _ _ h2, ovRc_upd _ _ h3,
    ovRc_upd _ _ h4, ovRc_zero _ h3, ovRc_zero _ h4]

theorem dataCreateSt_ov {data wg wi : Nat} {t : Nat → Entry} {rp : Ripas} (h1 : T.g data = none)
    (h2 : T.g wg = none) (h4 : T.rc wg = 0) :
    dataCreateSt (ov T s) data wg wi t rp = ov T (dataCreateSt s data wg wi t rp) := by
  simp only [dataCreateSt, ov, ovSt_upd _ _ h1, ovMem_upd _ _ h2,
    ovRc_upd _ _ h4, ovRc_zero _ h4]

/-- The end of a walking command that does not meet the changes. -/
theorem post_ov {r : Rd} {q : Rec} {w : Walk} {op : Op} (hg : T.g w.g = none) (hr : T.rc w.g = 0)
    (hk : ∀ x ∈ kept op, T.g x = none)
    (hc : ∀ rd rtt a lvl, op = .rttCreate rd rtt a lvl → T.rc rtt = 0)
    (hx : ∀ x ∈ extra s w op, T.g x = none ∧ T.rc x = 0)
    (hs : ∀ rd data a src flags, op = .dataCreate rd data a src flags → s.pas src = .ns → T.g src = none) :
    post P (ov T s) r q w op = ovOut T (post P s r q w op) := by
  have hrc : (ov T s).rc w.g = s.rc w.g := ovRc_zero _ hr
  have hgt := getTab_ov (s := s) hg
  cases op with
  | rttCreate rd rtt a lvl =>
    have hk1 := hk rtt (by simp [kept])
    have hc1 := hc _ _ _ _ rfl
    simp only [post, hgt]
    split
    · cases getTab s w.g with
      | none => rfl
      | some t =>
        dsimp only
        split
        · rw [rttCreateSt_ov hk1 hg hc1 hr]; rfl
        · rw [rttCreateSt_ov hk1 hg hc1 hr]; rfl
        · split
          · rw [rttCreateSt_ov hk1 hg hc1 hr]; rfl
          · rfl
        · split
          · rw [rttCreateSt_ov hk1 hg hc1 hr]; rfl
          · rfl
        · rfl
    · rfl
  | rttFold rd a lvl =>
    simp only [post, hgt]
    split
    · rename_i hd
      cases ht : getTab s w.g with
      | none => rfl
      | some t =>
        dsimp only
        split
        · rename_i c hc'
          have hxc : T.g c = none ∧ T.rc c = 0 := hx c (by
            simp only [extra, if_pos hd, tabOf, ht, Option.getD_some, hc', List.mem_singleton])
          rw [lk_ov hxc.1, getTab_ov hxc.1, show (ov T s).rc c = s.rc c from ovRc_zero _ hxc.2, hrc]
          split
          · split
            · rfl
            · split
              · rfl
              · rfl
              · split
                · rw [dropTableSt_ov hxc.1 hg hxc.2 hr]; rfl
                · rfl
          · rfl
        · rfl
    · rfl
  | rttDestroy rd a lvl =>
    simp only [post, hgt]
    cases ht : getTab s w.g with
    | none => rfl
    | some t =>
      dsimp only
      split
      · rename_i hd
        split
        · rename_i c hc'
          have hxc : T.g c = none ∧ T.rc c = 0 := hx c (by
            simp only [extra, if_pos hd, tabOf, ht, Option.getD_some, hc', List.mem_singleton])
          rw [lk_ov hxc.1, show (ov T s).rc c = s.rc c from ovRc_zero _ hxc.2, hrc]
          split
          · split
            · split
              · rw [dropTableSt_ov hxc.1 hg hxc.2 hr]; rfl
              · rfl
            · rfl
          · rfl
        · rfl
      · rfl
  | rttMapUnprotected rd a lvl h =>
    simp only [post, hgt]
    split
    · cases getTab s w.g with
      | none => rfl
      | some t =>
        dsimp only
        split
        · simp only [ovOut, ov, ovMem_upd _ _ hg]
        · rfl
    · rfl
  | rttUnmapUnprotected rd a lvl =>
    simp only [post, hgt]
    cases getTab s w.g with
    | none => rfl
    | some t =>
      dsimp only
      split
      · split
        · simp only [ovOut, ov, ovMem_upd _ _ hg]
        · rfl
      · rfl
  | rttReadEntry rd a lvl =>
    simp only [post, hgt]
    cases getTab s w.g <;> rfl
  | dataCreateUnknown rd data a =>
    have hk1 := hk data (by simp [kept])
    simp only [post, hgt]
    split
    · cases getTab s w.g with
      | none => rfl
      | some t =>
        dsimp only
        split
        · rw [dataCreateSt_ov hk1 hg hr]; rfl
        · rfl
    · rfl
  | dataCreate rd data a src flags =>
    have hk1 := hk data (by simp [kept])
    have hk2 := hk rd (by simp [kept])
    simp only [post, hgt]
    split
    · cases getTab s w.g with
      | none => rfl
      | some t =>
        dsimp only
        split
        · rw [show (ov T s).pas = s.pas from rfl]
          split
          · rename_i hp
            rw [show (ov T s).mem src = s.mem src from ovMem_none _ (hs _ _ _ _ _ rfl hp)]
            cases s.mem src with
            | page p =>
              dsimp only
              have key : ∀ c, State.mk (ov T s).st (ov T s).rc (upd (upd (ov T s).mem data (.page p)) rd c) s.pas
                  (ov T s).vmid = ov T { s with mem := upd (upd s.mem data (.page p)) rd c } := by
                intro c; simp only [ov, ovMem_upd _ _ hk1, ovMem_upd _ _ hk2]
              rw [key]
              rw [dataCreateSt_ov hk1 hg hr]; rfl
            | _ => rfl
          · simp only [ovOut, ov, ovMem_upd _ _ hk1]
        · rfl
    · rfl
  | dataDestroy rd a =>
    simp only [post, hgt]
    cases ht : getTab s w.g with
    | none => rfl
    | some t =>
      dsimp only
      split
      · rename_i hd
        split
        · rename_i rp pa hc'
          have hxc : T.g pa = none ∧ T.rc pa = 0 := hx pa (by
            simp only [extra, if_pos hd, tabOf, ht, Option.getD_some, hc', List.mem_singleton])
          rw [lk_ov hxc.1, hrc]
          split
          · simp only [ovOut, ov, ovMem_upd _ _ hg, ovMem_upd _ _ hxc.1, ovSt_upd _ _ hxc.1, ovRc_upd _ _ hr]
          · rfl
        · rfl
      · rfl
  | rttInitRipas rd base top =>
    have hk2 := hk rd (by simp [kept])
    simp only [post, hgt]
    cases getTab s w.g with
    | none => rfl
    | some t =>
      dsimp only
      split
      · rfl
      · split
        · simp only [ovOut, ov, ovMem_upd _ _ hg, ovMem_upd _ _ hk2]
        · simp only [ovOut, ov, ovMem_upd _ _ hg, ovMem_upd _ _ hk2]
  | rttSetRipas rd recA base top =>
    have hk2 := hk recA (by simp [kept])
    simp only [post, hgt]
    split
    · cases getTab s w.g with
      | none => rfl
      | some t =>
        dsimp only
        split
        · rfl
        · split
          · simp only [ovOut, ov, ovMem_upd _ _ hg, ovMem_upd _ _ hk2]
          · simp only [ovOut, ov, ovMem_upd _ _ hg]
    · rfl
  | _ => rfl

end

end Verif.Life
