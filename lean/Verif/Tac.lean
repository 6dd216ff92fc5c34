import Mathlib.Tactic.ByContra
import Mathlib.Tactic.NormNum
import Mathlib.Tactic.Ring
import Mathlib.Tactic.SplitIfs
import Mathlib.Tactic.Tauto
import Mathlib.Tactic.Push
import Mathlib.Tactic.Use
import Mathlib.Tactic.Cases
import Mathlib.Tactic.Common

/-! Mathlib tactics used across the proofs; no definitions. -/
