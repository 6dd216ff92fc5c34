import Verif.Atom.Seq
import Verif.Rmm.ViewStep

/-!
# What an operation leaves alone

A granule that an operation does not lock keeps its state, and its contents unless it is a
running REC.
-/

namespace Verif.Atom

open Rmm

section
variable {P : Plat} {s s' : State} {ret : Ret}

/-- A walking command changes nothing but the table it holds, the granules it keeps locked and
the granule it locks at the end. -/
theorem post_kept {r : Rd} {q : Rec} {w : Walk} {op : Op} (h : post P s r q w op = some (s', ret)) {x : Nat}
    (hg : x ≠ w.g) (hk : x ∉ kept op) (he : x ∉ extra s w op) : Kept s s' x := by
  have hs : Kept s s x := ⟨rfl, rfl, rfl⟩
  have fin : ∀ {a b : State} {c d : Ret}, some (a, c) = some (b, d) → a = b := fun e => by cases e; rfl
  cases op with
  | rttCreate rd rtt a lvl =>
    simp only [kept, List.mem_singleton] at hk
    have key : ∀ t e dp dc, Kept s (rttCreateSt s rtt w.g w.i t e (dOf lvl) dp dc) x := by
      intro t e dp dc
      unfold rttCreateSt Kept
      dsimp only
      rw [upd_ne _ _ _ hk, upd_ne _ _ _ hg, upd_ne _ _ _ hk, upd_ne _ _ _ hg, upd_ne _ _ _ hk]
      exact ⟨rfl, rfl, rfl⟩
    simp only [post] at h
    split at h
    · split at h
      · cases h
      · split at h
        · rw [← fin h]; exact key ..
        · rw [← fin h]; exact key ..
        · split at h
          · rw [← fin h]; exact key ..
          · cases h
        · split at h
          · rw [← fin h]; exact key ..
          · cases h
        · rw [← fin h]; exact hs
    · rw [← fin h]; exact hs
  | rttFold rd a lvl =>
    simp only [post] at h
    split at h
    · rename_i hd
      split at h
      · cases h
      · rename_i t ht
        split at h
        · rename_i c hc
          have hx : x ≠ c := by
            simp only [extra, if_pos hd, tabOf, ht, Option.getD_some, hc, List.mem_singleton] at he
            exact he
          split at h
          · split at h
            · cases h
            · split at h
              · cases h
              · rw [← fin h]; exact hs
              · split at h
                · rw [← fin h]
                  unfold dropTableSt Kept
                  dsimp only
                  rw [upd_ne _ _ _ hx, upd_ne _ _ _ hx, upd_ne _ _ _ hg, upd_ne _ _ _ hg, upd_ne _ _ _ hx]
                  exact ⟨rfl, rfl, rfl⟩
                · cases h
          · cases h
        · rw [← fin h]; exact hs
    · rw [← fin h]; exact hs
  | rttDestroy rd a lvl =>
    simp only [post] at h
    split at h
    · cases h
    · rename_i t ht
      split at h
      · rename_i hd
        split at h
        · rename_i c hc
          have hx : x ≠ c := by
            simp only [extra, if_pos hd, tabOf, ht, Option.getD_some, hc, List.mem_singleton] at he
            exact he
          split at h
          · split at h
            · split at h
              · rw [← fin h]
                unfold dropTableSt Kept
                dsimp only
                rw [upd_ne _ _ _ hx, upd_ne _ _ _ hx, upd_ne _ _ _ hg, upd_ne _ _ _ hg, upd_ne _ _ _ hx]
                exact ⟨rfl, rfl, rfl⟩
              · cases h
            · rw [← fin h]; exact hs
          · cases h
        · rw [← fin h]; exact hs
      · rw [← fin h]; exact hs
  | rttMapUnprotected rd a lvl hd =>
    simp only [post] at h
    split at h
    · split at h
      · cases h
      · split at h
        · rw [← fin h]; exact ⟨rfl, upd_ne _ _ _ hg, rfl⟩
        · rw [← fin h]; exact hs
    · rw [← fin h]; exact hs
  | rttUnmapUnprotected rd a lvl =>
    simp only [post] at h
    split at h
    · cases h
    · split at h
      · split at h
        · rw [← fin h]; exact ⟨rfl, upd_ne _ _ _ hg, rfl⟩
        · rw [← fin h]; exact hs
      · rw [← fin h]; exact hs
  | rttReadEntry rd a lvl =>
    simp only [post] at h
    split at h
    · cases h
    · rw [← fin h]; exact hs
  | dataCreateUnknown rd data a =>
    simp only [kept, List.mem_cons, List.not_mem_nil, or_false, not_or] at hk
    simp only [post] at h
    split at h
    · split at h
      · cases h
      · split at h
        · rw [← fin h]; exact ⟨upd_ne _ _ _ hk.1, upd_ne _ _ _ hg, upd_ne _ _ _ hg⟩
        · rw [← fin h]; exact hs
    · rw [← fin h]; exact hs
  | dataCreate rd data a src flags =>
    simp only [kept, List.mem_cons, List.not_mem_nil, or_false, not_or] at hk
    simp only [post] at h
    split at h
    · split at h
      · cases h
      · split at h
        · split at h
          · split at h
            · rw [← fin h]
              refine ⟨upd_ne _ _ _ hk.1, ?_, upd_ne _ _ _ hg⟩
              unfold dataCreateSt
              dsimp only
              rw [upd_ne _ _ _ hg, upd_ne _ _ _ hk.2, upd_ne _ _ _ hk.1]
            · cases h
          · rw [← fin h]; exact ⟨rfl, upd_ne _ _ _ hk.1, rfl⟩
        · rw [← fin h]; exact hs
    · rw [← fin h]; exact hs
  | dataDestroy rd a =>
    simp only [post] at h
    split at h
    · cases h
    · rename_i t ht
      split at h
      · rename_i hd
        split at h
        · rename_i rp pa hc
          have hx : x ≠ pa := by
            simp only [extra, if_pos hd, tabOf, ht, Option.getD_some, hc, List.mem_singleton] at he
            exact he
          split at h
          · rw [← fin h]
            refine ⟨upd_ne _ _ _ hx, ?_, upd_ne _ _ _ hg⟩
            dsimp only
            rw [upd_ne _ _ _ hx, upd_ne _ _ _ hg]
          · cases h
        · rw [← fin h]; exact hs
      · rw [← fin h]; exact hs
  | rttInitRipas rd base top =>
    simp only [kept, List.mem_singleton] at hk
    simp only [post] at h
    split at h
    · cases h
    · split at h
      · rw [← fin h]; exact hs
      · have key : ∀ c : State, ∀ t v, c = { s with mem := upd (upd s.mem w.g t) rd v } → Kept s c x := by
          rintro c t v rfl
          refine ⟨rfl, ?_, rfl⟩
          dsimp only
          rw [upd_ne _ _ _ hk, upd_ne _ _ _ hg]
        split at h
        · exact key _ _ _ (fin h).symm
        · exact key _ _ _ (fin h).symm
  | rttSetRipas rd recA base top =>
    simp only [kept, List.mem_cons, List.not_mem_nil, or_false, not_or] at hk
    simp only [post] at h
    split at h
    · split at h
      · cases h
      · split at h
        · rw [← fin h]; exact hs
        · split at h
          · rw [← fin h]
            refine ⟨rfl, ?_, rfl⟩
            dsimp only
            rw [upd_ne _ _ _ hk.2, upd_ne _ _ _ hg]
          · rw [← fin h]; exact ⟨rfl, upd_ne _ _ _ hg, rfl⟩
    · rw [← fin h]; exact hs
  | _ => cases h

theorem Keeps.of_kept {x : Nat} (k : Kept s s' x) : Keeps s s' x :=
  ⟨k.1, Or.inr ⟨k.2.1, fun h => by rw [k.2.2, h]⟩⟩

variable {ti : Nat → TabInfo} {di : Nat → Nat × Nat}

/-- Any other operation keeps the granules it does not lock. -/
theorem Eff.keeps {op : Op} (e : Eff P s ti di s' ret op) (hw : isWalk op = false) {x : Nat}
    (hx : s.st x = .rd ∨ s.st x = .delegated ∨ s.st x = .recd ∨ s.st x = .rtt) (hf : x ∉ foot s op) :
    Keeps s s' x := by
  have nst : ∀ {y e}, s.st y = e → e ≠ .rd → e ≠ .delegated → e ≠ .recd → e ≠ .rtt → x ≠ y := by
    rintro y e rfl h1 h2 h3 h4 rfl
    rcases hx with hx | hx | hx | hx <;> contradiction
  cases op with
  | granuleDelegate a =>
    simp only [foot, List.mem_singleton] at hf
    obtain ⟨_, h2, _, _, rfl⟩ := e
    exact .of_kept ⟨upd_ne _ _ _ hf, upd_ne _ _ _ hf, rfl⟩
  | granuleUndelegate a =>
    simp only [foot, List.mem_singleton] at hf
    obtain ⟨_, h2, _, rfl⟩ := e
    exact .of_kept ⟨upd_ne _ _ _ hf, rfl, rfl⟩
  | realmActivate rd =>
    simp only [foot, List.mem_singleton] at hf
    have k : ActivateOk P s rd s' ret := e
    rw [k.st]
    exact .of_kept ⟨rfl, upd_ne _ _ _ hf, rfl⟩
  | realmCreate rd pA q =>
    have k : RealmCreateOk P s rd q s' ret := e
    simp only [foot, List.mem_cons, List.mem_map, List.mem_range, not_or, not_exists, not_and] at hf
    obtain ⟨ts, _, rfl⟩ := k.st
    have hx : inRange q.rttBase q.p.rttNumStart x = false := by
      by_contra hc
      obtain ⟨j, hj, hh⟩ := (inRange_iff _ _ _).mp (by simpa using hc)
      exact hf.2 j hj hh.symm
    refine .of_kept ?_
    unfold realmCreateSt Kept
    dsimp only
    rw [upd_ne _ _ _ hf.1, upd_ne _ _ _ hf.1, hx]
    exact ⟨rfl, rfl, rfl⟩
  | realmDestroy rd =>
    have k : RealmDestroyOk s rd s' ret := e
    simp only [foot, List.mem_cons, List.mem_map, List.mem_range, not_or, not_exists, not_and] at hf
    have hx : inRange (rdOf s rd).root (rdOf s rd).nroots x = false := by
      by_contra hc
      obtain ⟨j, hj, hh⟩ := (inRange_iff _ _ _).mp (by simpa using hc)
      exact hf.2 j hj hh.symm
    rw [k.st]
    refine .of_kept ?_
    unfold realmDestroySt Kept
    dsimp only
    rw [upd_ne _ _ _ hf.1, upd_ne _ _ _ hf.1, hx]
    exact ⟨rfl, rfl, rfl⟩
  | recCreate rd rc pA q =>
    have k : RecCreateOk P s rd rc q s' ret := e
    simp only [foot, List.mem_cons, not_or] at hf
    obtain ⟨h2, h3, h4⟩ := hf
    rw [k.st]
    refine .of_kept ?_
    unfold recCreateSt markAux Kept
    dsimp only
    rw [upd_ne _ _ _ h3, upd_ne _ _ _ h2, upd_ne _ _ _ h3, upd_ne _ _ _ h2, if_neg h4]
    exact ⟨rfl, rfl, rfl⟩
  | recDestroy rc =>
    have k : RecDestroyOk s rc s' ret := e
    simp only [foot, List.mem_cons, not_or] at hf
    obtain ⟨h2, h4⟩ := hf
    rw [k.st]
    unfold recDestroySt
    refine ⟨?_, Or.inr ⟨?_, ?_⟩⟩
    · dsimp only
      rw [upd_ne _ _ _ h2, if_neg h4]
    · dsimp only
      rw [upd_ne _ _ _ h2, if_neg h4]
    · intro hz
      dsimp only
      unfold upd
      split
      · rename_i hh; rw [← hh, hz]
      · exact hz
  | recAuxCount rd => rw [e.1]; exact .refl _ _
  | psciComplete c t st =>
    have k : PsciOk P s c t st s' ret := e
    simp only [foot, List.mem_cons, List.not_mem_nil, or_false, not_or] at hf
    rw [k.st]
    refine .of_kept ⟨rfl, ?_, rfl⟩
    dsimp only
    rw [upd_ne _ _ _ hf.1]
    split
    · rw [upd_ne _ _ _ hf.2]
    · rfl
  | recEnter rc run acc rej =>
    obtain ⟨_, k⟩ := e
    simp only [foot, List.mem_singleton] at hf
    rw [k.st]
    exact .of_kept ⟨rfl, upd_ne _ _ _ hf, upd_ne _ _ _ hf⟩
  | recRun rc stop off regs pc =>
    obtain ⟨h0, h1, _, rfl⟩ := e
    by_cases hr : x = rc
    · subst hr; exact ⟨rfl, Or.inl ⟨h0, by omega⟩⟩
    · exact .of_kept ⟨rfl, upd_ne _ _ _ hr, upd_ne _ _ _ hr⟩
  | psciRequest rc =>
    obtain ⟨h0, h1, _, _, rfl⟩ := e
    by_cases hr : x = rc
    · subst hr; exact ⟨rfl, Or.inl ⟨h0, by omega⟩⟩
    · exact .of_kept ⟨rfl, upd_ne _ _ _ hr, upd_ne _ _ _ hr⟩
  | rsiIpaStateSet rc base top v chg =>
    obtain ⟨h0, h1, _, h5⟩ := e
    by_cases hr : x = rc
    · subst hr
      rcases h5 with rfl | ⟨_, _, _, _, _, rfl⟩ <;> exact ⟨rfl, Or.inl ⟨h0, by omega⟩⟩
    · rcases h5 with rfl | ⟨_, _, _, _, _, rfl⟩
      · exact .of_kept ⟨rfl, upd_ne _ _ _ hr, rfl⟩
      · exact .of_kept ⟨rfl, upd_ne _ _ _ hr, upd_ne _ _ _ hr⟩
  | psciSystemOff rc =>
    obtain ⟨h0, h1, _, rfl⟩ := e
    simp only [foot, List.mem_singleton] at hf
    by_cases hr : x = rc
    · subst hr; exact ⟨rfl, Or.inl ⟨h0, by omega⟩⟩
    · exact .of_kept ⟨rfl, upd_ne _ _ _ hf, upd_ne _ _ _ hr⟩
  | rsiExtend rc i v =>
    obtain ⟨h0, _, _, _, _, rfl⟩ := e
    simp only [foot, List.mem_singleton] at hf
    exact .of_kept ⟨rfl, upd_ne _ _ _ hf, rfl⟩
  | realmWrite rc a p =>
    obtain ⟨h0, _, _, y, rfl, h5⟩ := e
    refine .of_kept ⟨rfl, upd_ne _ _ _ ?_, rfl⟩
    rcases h5 with ⟨h6, h7, _⟩ | ⟨h6, _⟩
    · exact nst h6 (by simp) (by simp) (by simp) (by simp)
    · exact nst h6 (by simp) (by simp) (by simp) (by simp)
  | auxWrite rc a p =>
    obtain ⟨h0, _, _, h6, h7, rfl⟩ := e
    exact .of_kept ⟨rfl, upd_ne _ _ _ (nst h7 (by simp) (by simp) (by simp) (by simp)), rfl⟩
  | hostWrite a p =>
    obtain ⟨h0, _, _, rfl⟩ := e
    exact .of_kept ⟨rfl, upd_ne _ _ _ (nst h0 (by simp) (by simp) (by simp) (by simp)), rfl⟩
  | el3Move a toNs => obtain ⟨_, _, rfl⟩ := e; exact .of_kept ⟨rfl, rfl, rfl⟩
  | _ => cases hw

end

end Verif.Atom
