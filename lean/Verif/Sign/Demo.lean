import Verif.Sign.Step

/-! Executions for the examples and for the counterexamples. -/

namespace Verif.Sign

def exec : List Op → State → Res
  | [], s => .ok s
  | o :: l, s => match step s o with | .ok s' => exec l s' | r => r

/-- The state at the end of an execution, if it gets there. -/
def after (l : List Op) : Option State :=
  match exec l start with
  | .ok s => some s
  | _ => none

theorem exec_reach {i : State} : ∀ (l : List Op) (s s' : State),
    ReachP (fun _ _ => True) i s → exec l s = .ok s' → ReachP (fun _ _ => True) i s'
  | [], s, s', hr, h => by cases h; exact hr
  | o :: l, s, s', hr, h => by
    unfold exec at h
    cases hs : step s o with
    | ok s1 => rw [hs] at h; exact exec_reach l s1 s' (.step hr trivial hs) h
    | blocked => rw [hs] at h; cases h
    | crash => rw [hs] at h; cases h

theorem after_reach {l : List Op} {s : State} (h : after l = some s) : Reach s := by
  unfold after at h
  split at h
  · rename_i s' hs; cases h; exact exec_reach l start _ .start hs
  · cases h

/-- The property of the final state as a Boolean. -/
def check (l : List Op) (q : State → Bool) : Bool :=
  match after l with
  | some s => q s
  | none => false

theorem check_demo (l : List Op) {q : State → Bool} (h : check l q = true) : ∃ s, Reach s ∧ q s = true := by
  unfold check at h
  split at h
  · rename_i s hs; exact ⟨s, after_reach hs, h⟩
  · cases h

/-- The same for executions all of whose steps satisfy `w`. -/
def execW (w : State → Op → Bool) : List Op → State → Option State
  | [], s => some s
  | o :: l, s => match w s o, step s o with | true, .ok s' => execW w l s' | _, _ => none

theorem execW_reach {w : State → Op → Bool} {P : State → Op → Prop} (hw : ∀ s o, w s o = true → P s o) {i : State} :
    ∀ (l : List Op) (s s' : State), ReachP P i s → execW w l s = some s' → ReachP P i s'
  | [], s, s', hr, h => by cases h; exact hr
  | o :: l, s, s', hr, h => by
    unfold execW at h
    split at h
    · rename_i s1 h1 h2; exact execW_reach hw l s1 s' (.step hr (hw s o h1) h2) h
    · cases h

theorem checkW_demo {w : State → Op → Bool} {P : State → Op → Prop} (hw : ∀ s o, w s o = true → P s o) (l : List Op)
    {q : State → Bool} (h : ((execW w l start).map q) = some true) : ∃ s, ReachP P start s ∧ q s = true := by
  cases hx : execW w l start with
  | none => rw [hx] at h; cases h
  | some s => rw [hx] at h; exact ⟨s, execW_reach hw l start s .start hx, by simpa using h⟩

def steps (c n : Nat) : List Op := List.replicate n (.cpu c .ok false)

/-- CPU 0 runs REC 10 and CPU 1 runs REC 20. -/
def boot : List Op := [.create 10, .create 20, .enter 0 10, .enter 1 20]

/-- CPU 0 prepares a token with hash 7 and queues the request; an interrupt is pending. -/
def request0 : List Op := .tokenInit 0 7 :: steps 0 3 ++ .tokenContinue 0 :: steps 0 4 ++ [.cpu 0 .ok true]

/-- CPU 1 does the same with hash 8, and asks EL3 for responses. -/
def request1 : List Op := .tokenInit 1 8 :: steps 1 3 ++ .tokenContinue 1 :: steps 1 5

/-- CPU 0 alone: the response is pulled and the token is completed. -/
def alone : List Op :=
  boot ++ request0 ++ [.el3 0 96, .tokenContinue 0] ++ steps 0 3 ++ steps 0 8 ++ .tokenContinue 0 :: steps 0 3

/-- CPU 1 pulls the response for REC 10 and is before the check of the ticket. -/
def other : List Op := boot ++ request0 ++ request1 ++ .el3 0 96 :: steps 1 4

/-- CPU 1 has passed the check of the ticket for REC 10. -/
def passed : List Op := other ++ steps 1 1

end Verif.Sign
