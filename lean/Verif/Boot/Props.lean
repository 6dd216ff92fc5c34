import Verif.Boot.StartProof
import Verif.Boot.TokenProof

/-!
# Properties of boot (C68, C69)
-/

namespace Verif.Boot

open Verif.Mem (Addr)

/-! ## C68: from the first instruction to the C code -/

/-- An image as the linker makes it and EL3 loads it: tables of `ng` words and `nr` relocations, word
aligned, that neither wrap nor overlap; the relocations are of the one type there is, aim at aligned
words and not at the table itself. -/
structure Linked (g : Image) (m : W) (ng nr : Nat) : Prop where
  moved : g.base ≠ 0
  got : al8 g.gotS = true ∧ g.gotE = g.gotS + BitVec.ofNat 64 (8 * ng) ∧ g.gotS.toNat + 8 * ng < 2 ^ 64 ∧ 0 < ng
  rel : al8 g.relS = true ∧ g.relE = g.relS + BitVec.ofNat 64 (24 * nr) ∧ g.relS.toNat + 24 * nr < 2 ^ 64 ∧ 0 < nr
  kind : ∀ i < nr, ent m g.relS i 1 = 0 ∨ ent m g.relS i 1 = 1027
  aligned : ∀ i < nr, ∀ a, Hits m g.relS g.base (g.fin - g.base) i a → al8 a = true
  apart : ∀ i < nr, ∀ a, Hits m g.relS g.base (g.fin - g.base) i a → OffTable g.relS nr a
  gotApart : ∀ k < ng, OffTable g.relS nr (slot g.gotS k)

/-- The value a word of the image has to have at run time: the one given by the last relocation that
aims at it, else, for a word of the GOT that holds an address in the image, that address moved, else
what was loaded. -/
def Moved (g : Image) (m : W) (ng nr : Nat) (m' : W) : Prop :=
  (∀ a i, i < nr → Hits m g.relS g.base (g.fin - g.base) i a →
    (∀ j < nr, i < j → ¬ Hits m g.relS g.base (g.fin - g.base) j a) → m' a = ent m g.relS i 2 + g.base) ∧
  (∀ a, (∀ i < nr, ¬ Hits m g.relS g.base (g.fin - g.base) i a) → (∀ k < ng, a ≠ slot g.gotS k) → m' a = m a) ∧
  (∀ a, (∀ i < nr, ¬ Hits m g.relS g.base (g.fin - g.base) i a) → ∀ k < ng, a = slot g.gotS k →
    m' a = if m a ≤ g.fin - g.base then m a + g.base else m a)

theorem gotDone_slot {m : W} {s base size : BitVec 64} {n k : Nat} (hn : 8 * n < 2 ^ 64) (hk : k < n) :
    gotDone m s base size n (slot s k) = shifted base size (m (slot s k)) := by
  unfold gotDone
  rw [if_pos (by rw [slot_off s (by omega)]; omega)]

theorem gotDone_other {m : W} {s base size : BitVec 64} {n : Nat} {a : Addr} (h : ∀ k < n, a ≠ slot s k) :
    gotDone m s base size n a = m a := by
  unfold gotDone
  rw [if_neg]
  rintro ⟨h1, h2⟩
  refine h ((a - s).toNat / 8) (by omega) ?_
  rw [slot, show 8 * ((a - s).toNat / 8) = (a - s).toNat by omega, BitVec.ofNat_toNat, BitVec.setWidth_eq]
  grind

theorem fixup_run {g : Image} {m : W} {ng nr fuel : Nat} (h : Linked g m ng nr) (hf : ng ≤ fuel) (hr : nr ≤ fuel) :
    fixup g m fuel = some (relDone m (gotDone m g.gotS g.base (g.fin - g.base) ng) g.relS g.base (g.fin - g.base) nr) := by
  obtain ⟨a1, a2, a3, a4⟩ := h.got
  obtain ⟨b1, b2, b3, b4⟩ := h.rel
  have e1 := gotLoop_run (m := m) (base := g.base) (size := g.fin - g.base) a1 a2 a3 ng 0 fuel (by omega) a4 hf
  have hslot0 : slot g.gotS 0 = g.gotS := by simp [slot]
  have hdone0 : gotDone m g.gotS g.base (g.fin - g.base) 0 = m := by
    funext a; unfold gotDone; rw [if_neg (by omega)]
  rw [hslot0, hdone0] at e1
  have htm : ∀ i < nr, ∀ j < 3, ent (gotDone m g.gotS g.base (g.fin - g.base) ng) g.relS i j = ent m g.relS i j := by
    intro i hi j hj
    exact gotDone_other (fun k hk e => h.gotApart k hk i hi j hj e.symm)
  have e2 := relaLoop_run (t := m) (m := gotDone m g.gotS g.base (g.fin - g.base) ng) b1 b2 b3 h.kind htm h.aligned h.apart nr 0 fuel
    (by omega) b4 hr
  simp only [Nat.mul_zero, BitVec.ofNat_eq_ofNat, BitVec.add_zero] at e2
  unfold fixup
  rw [if_neg h.moved]
  simp only [e1, Option.bind_eq_bind, Option.bind_some]
  exact e2

/-- Relocation gives every word of the image, and every word outside it, exactly the value it has to
have. -/
theorem C68_reloc_exact {g : Image} {m : W} {ng nr fuel : Nat} (h : Linked g m ng nr) (hf : ng ≤ fuel) (hr : nr ≤ fuel) :
    ∃ m', fixup g m fuel = some m' ∧ Moved g m ng nr m' := by
  obtain ⟨_, _, a3, _⟩ := h.got
  refine ⟨_, fixup_run h hf hr, ?_, ?_, ?_⟩
  · intro a i hi hit hlast
    exact relDone_hit nr i hi hit hlast
  · intro a hmiss hg
    rw [relDone_miss nr hmiss, gotDone_other hg]
  · intro a hmiss k hk e
    rw [relDone_miss nr hmiss, e, gotDone_slot (by omega) hk]
    rfl

/-- A CPU whose number is out of range fails after relocation and leaves the cold boot flag, so the
next one relocates the image again. That changes nothing, if the image is loaded above its own size. -/
theorem C68_reloc_twice {g : Image} {m m' : W} {ng nr fuel : Nat} (h : Linked g m ng nr) (hf : ng ≤ fuel) (hr : nr ≤ fuel)
    (hb : (g.fin - g.base).toNat < g.base.toNat) (hw : g.base.toNat + (g.fin - g.base).toNat < 2 ^ 64)
    (e : fixup g m fuel = some m') : fixup g m' fuel = some m' := by
  have e0 := fixup_run h hf hr
  rw [e] at e0
  have hm' := Option.some.inj e0
  obtain ⟨_, _, a3, _⟩ := h.got
  -- the table is as it was
  have htab : ∀ i < nr, ∀ j < 3, ent m' g.relS i j = ent m g.relS i j := by
    intro i hi j hj
    rw [hm', relDone_out h.apart nr (Nat.le_refl _) i hi j hj]
    exact gotDone_other (fun k hk e => h.gotApart k hk i hi j hj e.symm)
  have hits : ∀ i < nr, ∀ a, Hits m' g.relS g.base (g.fin - g.base) i a ↔ Hits m g.relS g.base (g.fin - g.base) i a := by
    intro i hi a
    unfold Hits
    rw [htab i hi 0 (by omega), htab i hi 1 (by omega), htab i hi 2 (by omega)]
  have h' : Linked g m' ng nr := {
    moved := h.moved, got := h.got, rel := h.rel
    kind := fun i hi => by rw [htab i hi 1 (by omega)]; exact h.kind i hi
    aligned := fun i hi a ha => h.aligned i hi a ((hits i hi a).1 ha)
    apart := fun i hi a ha => h.apart i hi a ((hits i hi a).1 ha)
    gotApart := h.gotApart }
  obtain ⟨m'', e1, f1, f2, f3⟩ := C68_reloc_exact h' hf hr
  obtain ⟨m0, e2, q1, q2, q3⟩ := C68_reloc_exact h hf hr
  have : m0 = m' := Option.some.inj (e2.symm.trans e)
  subst this
  rw [e1]
  congr 1
  funext a
  by_cases hex : ∃ i < nr, Hits m g.relS g.base (g.fin - g.base) i a
  · obtain ⟨i, hi, hit, hlast⟩ := exists_last _ nr hex
    rw [f1 a i hi ((hits i hi a).2 hit) (fun j hj hij hx => hlast j hj hij ((hits j hj a).1 hx)), q1 a i hi hit hlast,
      htab i hi 2 (by omega)]
  · have hmiss : ∀ i < nr, ¬ Hits m g.relS g.base (g.fin - g.base) i a := fun i hi hx => hex ⟨i, hi, hx⟩
    have hmiss' : ∀ i < nr, ¬ Hits m0 g.relS g.base (g.fin - g.base) i a := fun i hi hx => hmiss i hi ((hits i hi a).1 hx)
    by_cases hg : ∃ k < ng, a = slot g.gotS k
    · obtain ⟨k, hk, he⟩ := hg
      have v := q3 a hmiss k hk he
      rw [f3 a hmiss' k hk he]
      by_cases hle : m a ≤ g.fin - g.base
      · rw [if_pos hle] at v
        rw [v, if_neg]
        rw [BitVec.le_def] at hle ⊢
        rw [BitVec.toNat_add]
        omega
      · rw [if_neg hle] at v
        rw [v, if_neg hle]
    · exact f2 a hmiss' (fun k hk he => hg ⟨k, hk, he⟩)

/-- An image loaded where it was linked is left alone. -/
theorem C68_reloc_at_zero (g : Image) (m : W) (fuel : Nat) (h : g.base = 0) : fixup g m fuel = some m := by
  unfold fixup; rw [if_pos h]

/-- An image at 0x10000: the GOT has the words 0x18 and 0x5000000, the relocation at 0x100 aims at
word 0x200. -/
def demo : W := fun a =>
  if a = 0x10040 then 0x18 else if a = 0x10048 then 0x5000000 else if a = 0x10100 then 0x200
  else if a = 0x10108 then 1027 else if a = 0x10110 then 0x30 else 7

def demoImage : Image := { base := 0x10000, fin := 0x11000, gotS := 0x10040, gotE := 0x10050, relS := 0x10100, relE := 0x10118 }

theorem demo_hits {i : Nat} (hi : i < 1) {a : Addr} (h : Hits demo demoImage.relS demoImage.base (demoImage.fin - demoImage.base) i a) :
    a = 0x10200 := by
  have : i = 0 := by omega
  subst this
  exact h.2.2.symm.trans (by decide)

example : Linked demoImage demo 2 1 where
  moved := by decide
  got := by decide
  rel := by decide
  kind := by decide
  aligned := fun i hi a h => by rw [demo_hits hi h]; decide
  apart := fun i hi a h => by
    rw [demo_hits hi h]
    intro i' hi' j hj
    have : i' = 0 := by omega
    subst this
    revert j; decide
  gotApart := by
    intro k hk i hi j hj
    have : i = 0 := by omega
    subst this
    revert k j; decide

example : (fixup demoImage demo 5).map (fun m => (m 0x10040, m 0x10048, m 0x10200, m 0x10208)) =
    some (0x10018, 0x5000000, 0x10030, 7) := by decide

/-- The loops test at their end: with an empty GOT a word that is no part of it is changed. RMM always
has a GOT. -/
theorem C68_reloc_empty_got : ∃ g m, g.gotS = g.gotE ∧ m g.gotS = 0x18 ∧ (fixup g m 5).map (· g.gotS) = some 0x10018 :=
  ⟨{ demoImage with gotE := 0x10040 }, demo, rfl, by decide, by decide⟩

/-- `mov_imm` loads the value it is given, whatever the register held. -/
theorem C68_mov_imm_exact (r v : BitVec 64) : movImm r v = v := by
  unfold movImm
  by_cases h : v = 0
  · rw [if_pos h, h]
  · rw [if_neg h]
    have h0 : Upto r v 0 r := .inl ⟨by have : low 0 = 0 := by decide
                                       rw [this]; simp, rfl⟩
    have h1 := movImm16_step (s := 0) (by omega) (by decide) h0
    have h2 := movImm16_step (s := 16) (by omega) (by decide) h1
    have h3 := movImm16_step (s := 32) (by omega) (by decide) h2
    have h4 := movImm16_step (s := 48) (by omega) (by decide) h3
    have hl : v &&& low 64 = v := by
      have : low 64 = BitVec.allOnes 64 := by decide
      rw [this, BitVec.and_allOnes]
    rcases h4 with ⟨h5, _⟩ | ⟨_, h5⟩
    · exact absurd (hl.symm.trans h5) h
    · exact h5.trans hl

/-- The test of the macro, `1 << shift - 1`, has to be read as GNU as and LLVM read it, with the shift
first. Read as C would, the macro loses bits. -/
def movImm16C (r v : BitVec 64) (shift : Nat) : BitVec 64 :=
  let mask : BitVec 64 := (0xffff : BitVec 64) <<< shift
  if (v >>> shift) &&& 0xffff ≠ 0 then
    if v &&& ((1 : BitVec 64) <<< (shift - 1)) ≠ 0 then
      (r &&& ~~~ mask) ||| (((v >>> shift) &&& 0xffff) <<< shift)
    else v &&& mask
  else r

theorem C68_mov_imm_precedence : movImm16C (movImm16 0 0x10002 0) 0x10002 16 = 0x10000 := by decide

/-- A CPU runs only with a number below MAX_CPUS, which is what it keeps in TPIDR_EL2, on the stack of
that number, and only once the data of cold boot are there. -/
theorem C68_entry_up {c : Cfg} {se : Addr} {rest : Bool} {s s' : Sys} {a : Args} {sp id}
    (h : entry c se rest s a = (s', .up sp id)) :
    id = a.x0 ∧ a.x0 < BitVec.ofNat 64 c.cpus ∧ sp = myStack c se a.x0 ∧ s'.cold = false ∧ s'.ready = true ∧
    (s.cold = true → s'.ifc = some (a.x1, a.x3) ∧ compatible a.x1 = true ∧ a.x2 ≤ BitVec.ofNat 64 c.cpus ∧ a.x0 < a.x2 ∧
      a.x3 ≠ 0 ∧ a.x3 &&& 0xfff = 0) ∧
    (s.cold = false → s' = s) := by
  have hw : s.cold = false → s' = s := fun hc => by
    have := entry_warm (c := c) (se := se) (rest := rest) a hc
    rw [h] at this; exact this
  unfold entry at h
  cases hc : s.cold
  · simp only [hc, Bool.false_eq_true, if_false] at h
    split at h
    · cases h
    next h1 =>
    split at h
    · next h2 =>
      cases h
      exact ⟨rfl, BitVec.not_le.1 h1, rfl, hc, h2, fun e => (by cases e), fun _ => rfl⟩
    · cases h
  · simp only [hc, if_true] at h
    split at h
    · cases h
    next h1 =>
    split at h
    · cases h
    next hk =>
    obtain ⟨k1, k2, k3, k4, k5⟩ := checkArgs_none hk
    split at h
    · cases h
      exact ⟨rfl, BitVec.not_le.1 h1, rfl, rfl, rfl, fun _ => ⟨rfl, k1, k2, k3, k4, k5⟩, fun e => (by cases e)⟩
    · cases h

/-- However many CPUs EL3 starts, in whatever order and with whatever arguments: BSS is cleared at
most once, and once it is, nothing that boot set is set again. -/
theorem C68_cold_once {c : Cfg} {se : Addr} {rest : Bool} (as bs : List Args) :
    let s := (starts c se rest {} as).1
    let s' := (starts c se rest s bs).1
    s.clears ≤ 1 ∧ (s.clears = 1 → s' = s) ∧ (s.clears = 0 → s.ifc = none ∧ s.ready = false) ∧
    (∀ v b, s.ifc = some (v, b) → compatible v = true ∧ b ≠ 0 ∧ b &&& 0xfff = 0) := by
  have hi := starts_inv (c := c) (se := se) (rest := rest) as (inv_init c)
  have hcl := hi.clears
  refine ⟨by rw [hcl]; split <;> omega, fun h => starts_warm bs ?_, fun h => hi.early ?_, hi.args⟩
  · cases hc : (starts c se rest {} as).1.cold
    · rfl
    · rw [hc] at hcl; rw [hcl] at h; exact absurd h (by decide)
  · cases hc : (starts c se rest {} as).1.cold
    · rw [hc] at hcl; rw [hcl] at h; exact absurd h (by decide)
    · rfl

/-- CPU 9 of 4 is refused and the image is relocated again; CPU 1 boots; CPU 3 joins. -/
example : (starts ⟨4, 3⟩ 0x40000 true {} [⟨9, 3, 4, 0x1000⟩, ⟨1, 3, 4, 0x1000⟩, ⟨3, 0, 0, 0⟩]).2.map
      (fun r => match r with | .up sp id => (sp, id) | _ => (0, 0)) = [(0, 0), (0x3d000, 1), (0x37000, 3)] ∧
    (starts ⟨4, 3⟩ 0x40000 true {} [⟨9, 3, 4, 0x1000⟩, ⟨1, 3, 4, 0x1000⟩, ⟨3, 0, 0, 0⟩]).1.relocs = 2 := by decide

/-- The stacks of the CPUs lie in the area the linker reserves and have no byte in common. -/
theorem C68_stacks_apart {c : Cfg} {se i j : BitVec 64} (hp : c.pages * 4096 < 2 ^ 32) (hc : c.cpus < 2 ^ 32)
    (hse : c.stackBytes ≤ se.toNat) (hi : i < BitVec.ofNat 64 c.cpus) (hj : j < BitVec.ofNat 64 c.cpus) :
    se.toNat - c.stackBytes ≤ (myStack c se i).toNat - c.pages * 4096 ∧ c.pages * 4096 ≤ (myStack c se i).toNat ∧
    (myStack c se i).toNat ≤ se.toNat ∧
    (i ≠ j → (myStack c se i).toNat + c.pages * 4096 ≤ (myStack c se j).toNat ∨
      (myStack c se j).toNat + c.pages * 4096 ≤ (myStack c se i).toNat) := by
  rw [BitVec.lt_def, BitVec.toNat_ofNat, Nat.mod_eq_of_lt (by omega)] at hi hj
  unfold Cfg.stackBytes at *
  generalize hn : c.pages * 4096 = n at *
  have bound : ∀ k, k < c.cpus → k * n + n ≤ n * c.cpus := by
    intro k hk
    have := Nat.mul_le_mul_left n (show k + 1 ≤ c.cpus from hk)
    rw [Nat.mul_comm k n]
    rw [Nat.mul_succ] at this
    exact this
  have bi := bound _ hi
  have bj := bound _ hj
  have ei : (myStack c se i).toNat = se.toNat - i.toNat * n := by
    unfold myStack; rw [hn]; exact umsubl_toNat hp (by omega) (by omega)
  have ej : (myStack c se j).toNat = se.toNat - j.toNat * n := by
    unfold myStack; rw [hn]; exact umsubl_toNat hp (by omega) (by omega)
  rw [ei, ej]
  refine ⟨by omega, by omega, by omega, fun hne => ?_⟩
  have hne' : i.toNat ≠ j.toNat := fun e => hne (BitVec.eq_of_toNat_eq e)
  rcases Nat.lt_or_gt_of_ne hne' with h | h
  · right
    have := Nat.mul_le_mul_right n (show i.toNat + 1 ≤ j.toNat from h)
    rw [Nat.succ_mul] at this
    omega
  · left
    have := Nat.mul_le_mul_right n (show j.toNat + 1 ≤ i.toNat from h)
    rw [Nat.succ_mul] at this
    omega

example : (5 * 4096 : Nat) < 2 ^ 32 ∧ (Cfg.stackBytes ⟨16, 5⟩) ≤ (0x100000 : BitVec 64).toNat ∧
    (myStack ⟨16, 5⟩ 0x100000 15).toNat = 0x100000 - 15 * 5 * 4096 := by decide

/-- The same for the exception stacks, a page each. -/
theorem C68_eh_stacks_apart {cpus : Nat} {ee i j : BitVec 64} (hc : cpus < 2 ^ 32) (hee : 4096 * cpus ≤ ee.toNat)
    (hi : i.toNat < cpus) (hj : j.toNat < cpus) (hne : i ≠ j) :
    ee.toNat - 4096 * cpus ≤ (myEhStack ee i).toNat - 4096 ∧ 4096 ≤ (myEhStack ee i).toNat ∧
    ((myEhStack ee i).toNat + 4096 ≤ (myEhStack ee j).toNat ∨ (myEhStack ee j).toNat + 4096 ≤ (myEhStack ee i).toNat) := by
  have ei : (myEhStack ee i).toNat = ee.toNat - i.toNat * 4096 :=
    umsubl_toNat (e := ee) (x := i) (n := 4096) (by omega) (by omega) (by omega)
  have ej : (myEhStack ee j).toNat = ee.toNat - j.toNat * 4096 :=
    umsubl_toNat (e := ee) (x := j) (n := 4096) (by omega) (by omega) (by omega)
  have hne' : i.toNat ≠ j.toNat := fun e => hne (BitVec.eq_of_toNat_eq e)
  rw [ei, ej]
  omega

example : (4096 * 16 : Nat) ≤ (0x20000 : BitVec 64).toNat ∧ (myEhStack 0x20000 3).toNat = 0x1d000 := by decide

/-- The private part of a CPU's address space, from the top: slots, a page that is not mapped, the
stack, another, the exception stack; all in the region one table maps, if the stack has at most 401
pages. -/
theorem C68_layout_ok {c : Cfg} (h : c.pages + 3 + 108 ≤ 512) :
    slotVirt.toNat + 108 * 4096 = 2 ^ 64 ∧
    stackEndVa.toNat + 4096 = slotVirt.toNat ∧
    (stackVirt c).toNat + c.pages * 4096 = stackEndVa.toNat ∧
    (ehEndVa c).toNat + 4096 = (stackVirt c).toNat ∧
    (ehVirt c).toNat + 4096 = (ehEndVa c).toNat ∧
    highBase.toNat ≤ (ehVirt c).toNat := by
  have h1 : slotVirt.toNat = 2 ^ 64 - 108 * 4096 := by decide
  have h2 : stackEndVa.toNat = 2 ^ 64 - 109 * 4096 := by decide
  have h3 : highBase.toNat = 2 ^ 64 - 512 * 4096 := by decide
  have h4 : (stackVirt c).toNat = 2 ^ 64 - 109 * 4096 - c.pages * 4096 := by
    unfold stackVirt
    rw [BitVec.toNat_sub, h2, BitVec.toNat_ofNat]; omega
  have h5 : (ehEndVa c).toNat = 2 ^ 64 - 110 * 4096 - c.pages * 4096 := by
    unfold ehEndVa
    rw [BitVec.toNat_sub, h4, show (4096 : BitVec 64).toNat = 4096 from rfl]; omega
  have h6 : (ehVirt c).toNat = 2 ^ 64 - 111 * 4096 - c.pages * 4096 := by
    unfold ehVirt
    rw [BitVec.toNat_sub, h5, show (4096 : BitVec 64).toNat = 4096 from rfl]; omega
  omega

example : (5 : Nat) + 3 + 108 ≤ 512 ∧ (ehVirt ⟨16, 5⟩) = 0xfffffffffff8c000 := by decide

/-- The compile-time assertion lets through two sizes of the stack too many: the exception stack is
then outside the region. -/
theorem C68_layout_assert_gap (c : Cfg) : (layoutAssert c = true ∧ (ehVirt c).toNat < highBase.toNat) ↔ c.pages = 402 ∨ c.pages = 403 := by
  have h2 : stackEndVa.toNat = 2 ^ 64 - 109 * 4096 := by decide
  have h3 : highBase.toNat = 2 ^ 64 - 512 * 4096 := by decide
  unfold layoutAssert
  rw [decide_eq_true_eq]
  have key : c.pages ≤ 403 → (ehVirt c).toNat = 2 ^ 64 - 111 * 4096 - c.pages * 4096 := by
    intro h
    have h4 : (stackVirt c).toNat = 2 ^ 64 - 109 * 4096 - c.pages * 4096 := by
      unfold stackVirt
      rw [BitVec.toNat_sub, h2, BitVec.toNat_ofNat]; omega
    have h5 : (ehEndVa c).toNat = 2 ^ 64 - 110 * 4096 - c.pages * 4096 := by
      unfold ehEndVa
      rw [BitVec.toNat_sub, h4, show (4096 : BitVec 64).toNat = 4096 from rfl]; omega
    unfold ehVirt
    rw [BitVec.toNat_sub, h5, show (4096 : BitVec 64).toNat = 4096 from rfl]; omega
  constructor
  · rintro ⟨h, hl⟩
    have := key (by omega)
    omega
  · intro h
    have := key (by omega)
    omega

/-! ## C69: the key and the token from EL3 -/

/-- If EL3 keeps to the interface, receiving the platform token runs no assertion into failure and
copies nothing out of bounds, whatever the sequence of answers. -/
theorem C69_token_safe {ver : BitVec 64} {size : Nat} {s : Att} {rs : List Resp} (hv : compatible ver = true) (hsz : size < 2 ^ 62)
    (hp : ∀ r ∈ rs, r.Proper) : (setupToken ver size s rs).2.1 ≠ .assert ∧ (setupToken ver size s rs).2.1 ≠ .overrun := by
  unfold setupToken
  split
  · exact ⟨by simp, by simp⟩
  · have h := loop_run hv hsz rs { shared := put s.shared 0 s.hash 32, buf := s.tokBuf } hp (by simp)
    revert h
    dsimp only
    generalize tokenLoop ver size { shared := put s.shared 0 s.hash 32, buf := s.tokBuf } rs = q
    obtain ⟨t, o⟩ := q
    rintro ⟨h1, h2, _⟩
    cases o <;> simp_all

/-- If it succeeds, the token kept is what EL3 handed over, piece after piece, in full, and it fits. -/
theorem C69_token_ok {ver : BitVec 64} {size : Nat} {s : Att} {rs : List Resp} (hv : compatible ver = true) (hsz : size < 2 ^ 62)
    (hp : ∀ r ∈ rs, r.Proper) (h : (setupToken ver size s rs).2.1 = .ok) :
    ∃ l, want rs = some l ∧ l.length ≤ size ∧
      platToken (setupToken ver size s rs).1 = some ((setupToken ver size s rs).1.tokBuf, l.length) ∧
      bytes (setupToken ver size s rs).1.tokBuf l.length = l := by
  revert h
  unfold setupToken
  split
  · intro h; cases h
  · have hl := loop_run hv hsz rs { shared := put s.shared 0 s.hash 32, buf := s.tokBuf } hp (by simp)
    revert hl
    dsimp only
    generalize tokenLoop ver size { shared := put s.shared 0 s.hash 32, buf := s.tokBuf } rs = q
    obtain ⟨t, o⟩ := q
    rintro ⟨_, _, hl⟩
    cases o <;> intro h 
    case ok =>
      obtain ⟨l, w, h1, h2, h3⟩ := hl rfl
      have z : ({ shared := put s.shared 0 s.hash 32, buf := s.tokBuf } : Tok).offset.toNat = 0 := rfl
      simp only [z, Nat.zero_add] at h1 h2 h3
      refine ⟨l, w, h1, by simp [platToken, h2], ?_⟩
      simp only [h3]
      apply List.ext_getElem
      · simp
      · intro i hi hi'
        simp [bytes, put, hi', List.getD]
    all_goals cases h

/-- If EL3 hands over a token and tells the truth about its length, it is taken exactly if it fits;
otherwise nothing is stored. -/
theorem C69_token_complete {ver : BitVec 64} {size : Nat} {s : Att} {rs : List Resp} {l : List Byte} (hv : compatible ver = true)
    (hsz : size < 2 ^ 62) (hk : s.loaded = true) (hp : ∀ r ∈ rs, r.Proper) (hh : Honest rs) (hw : want rs = some l) :
    (setupToken ver size s rs).2.1 = (if l.length ≤ size then .ok else .enomem) ∧
    (size < l.length → (setupToken ver size s rs).1.tokBuf = s.tokBuf ∧ (setupToken ver size s rs).1.token = s.token) := by
  unfold setupToken
  rw [if_neg (by simp [hk])]
  have h := loop_complete hv hsz rs { shared := put s.shared 0 s.hash 32, buf := s.tokBuf } hp (by simp) hh hw
  revert h
  dsimp only
  generalize tokenLoop ver size { shared := put s.shared 0 s.hash 32, buf := s.tokBuf } rs = q
  obtain ⟨t, o⟩ := q
  have z : (0 : BitVec 64).toNat = 0 := rfl
  simp only [z, Nat.zero_add]
  rintro ⟨h1, h2⟩
  subst h1
  by_cases hle : l.length ≤ size
  · simp only [if_pos hle]
    exact ⟨trivial, fun h => absurd h (by omega)⟩
  · simp only [if_neg hle]
    exact ⟨trivial, fun h => ⟨h2 h, trivial⟩⟩

/-- EL3's answer with one piece. -/
def piece (n rest : BitVec 64) (b : Byte) : Resp := { x0 := 0, x1 := n, x2 := rest, buf := fun i => b + BitVec.ofNat 8 i }

def busyResp : Resp := { x0 := -6, x1 := 0, x2 := 0, buf := fun _ => 0 }

/-- Busy, three bytes with two to come, busy, the last two. -/
def talk : List Resp := [busyResp, piece 3 2 10, busyResp, piece 2 0 50]

theorem busy_proper : busyResp.Proper := ⟨by decide, fun h => absurd h (by decide), fun h => absurd h (by decide)⟩

theorem piece_proper {n rest : BitVec 64} {b : Byte} (h : 0 < n.toNat ∧ n.toNat ≤ 4096) (h' : rest.toNat < 2 ^ 63) :
    (piece n rest b).Proper := ⟨by simp [piece], fun _ => h, fun _ => h'⟩

example : (∀ r ∈ talk, r.Proper) ∧ Honest talk ∧ want talk = some [10, 11, 12, 50, 51] ∧
    (setupToken 3 4096 { loaded := true } talk).2.1 = .ok ∧ (setupToken 3 4 { loaded := true } talk).2.1 = .enomem := by
  refine ⟨?_, ?_, by decide, by decide, by decide⟩
  · intro r hr
    simp only [talk, List.mem_cons, List.not_mem_nil, or_false] at hr
    rcases hr with rfl | rfl | rfl | rfl
    · exact busy_proper
    · exact piece_proper (by decide) (by decide)
    · exact busy_proper
    · exact piece_proper (by decide) (by decide)
  · have w : want [busyResp, piece 2 0 50] = some [50, 51] := by decide
    refine ⟨⟨⟨⟨trivial, ?_⟩, ?_⟩, ?_⟩, ?_⟩
    · intro _ h; exact absurd rfl h
    · intro h; exact absurd h (by decide)
    · intro _ _ l hl
      rw [w] at hl
      cases hl; rfl
    · intro h; exact absurd h (by decide)

/-- What EL3 sees, whatever it answers: the first request carries the hash of the attestation key in
the shared buffer, RMM does not touch the buffer between requests, and the length of the hash is 32
until EL3 has answered without error and 0 from then on. Without a key nothing is requested. -/
theorem C69_token_bound {ver : BitVec 64} {size : Nat} {s : Att} {rs : List Resp} :
    let cs := (setupToken ver size s rs).2.2
    (s.loaded = false → cs = []) ∧ cs.length ≤ rs.length ∧
    (∀ h : 0 < cs.length, bytes (cs[0].2) 32 = bytes s.hash 32) ∧
    (∀ i (h : i + 1 < cs.length), some cs[i + 1].2 = (rs[i]?).map (·.buf)) ∧
    (∀ i (h : i < cs.length), cs[i].1 = if ∃ j, ∃ hj : j < rs.length, j < i ∧ rs[j].x0.setWidth 32 = (0 : BitVec 32) then 0 else 32) := by
  unfold setupToken
  cases hk : s.loaded
  · simp
  · rw [if_neg (by simp)]
    have h := loop_calls (ver := ver) (size := size) rs { shared := put s.shared 0 s.hash 32, buf := s.tokBuf }
    revert h
    dsimp only
    generalize tokenLoop ver size { shared := put s.shared 0 s.hash 32, buf := s.tokBuf } rs = q
    obtain ⟨t, o⟩ := q
    rintro ⟨cs, h1, h2, h3, h4⟩
    have hcs : t.calls = cs := by simpa using h1
    subst hcs
    have main : ((true = false → t.calls = []) ∧ t.calls.length ≤ rs.length ∧
        (∀ h : 0 < t.calls.length, bytes (t.calls[0].2) 32 = bytes s.hash 32) ∧
        (∀ i (h : i + 1 < t.calls.length), some t.calls[i + 1].2 = (rs[i]?).map (·.buf)) ∧
        (∀ i (h : i < t.calls.length), t.calls[i].1 =
          if ∃ j, ∃ hj : j < rs.length, j < i ∧ rs[j].x0.setWidth 32 = (0 : BitVec 32) then 0 else 32)) := by
      refine ⟨fun h => (by cases h), h2, ?_, ?_, h3⟩
      · intro h
        have e : some t.calls[0].2 = some (put s.shared 0 s.hash 32) := h4 0 h
        rw [Option.some.inj e]
        unfold bytes
        apply List.map_congr_left
        intro i hi
        have : i < 32 := by simpa using hi
        simp [put, this]
      · intro i h
        have e := h4 (i + 1) h
        rw [if_neg (by omega)] at e
        exact e
    cases o <;> exact main

example : ((setupToken 3 4096 { loaded := true } talk).2.2.map (·.1)) = [32, 32, 0, 0] := by decide

/-- The lock of the shared buffer is free whenever the function has returned, and the token is set
only on success. -/
theorem C69_token_lock {ver : BitVec 64} {size : Nat} {s : Att} {rs : List Resp} (hl : s.locked = false)
    (h : (setupToken ver size s rs).2.1 = .ok ∨ (setupToken ver size s rs).2.1 = .einval ∨ (setupToken ver size s rs).2.1 = .enomem) :
    (setupToken ver size s rs).1.locked = false ∧
    ((setupToken ver size s rs).2.1 ≠ .ok → (setupToken ver size s rs).1.token = s.token) := by
  revert h
  unfold setupToken
  split
  · intro _; exact ⟨hl, fun _ => rfl⟩
  · dsimp only
    generalize tokenLoop ver size { shared := put s.shared 0 s.hash 32, buf := s.tokBuf } rs = q
    obtain ⟨t, o⟩ := q
    cases o <;> simp

example : (setupToken 3 4096 { loaded := true } [piece 3 2 10, { busyResp with x0 := -3 }]).2.1 = .einval := by decide

/-- The length check is done in 64 bits and wraps: a piece of 16 bytes with a remainder of almost
2 ^ 64 is copied past the end of a buffer of 8. -/
theorem C69_token_wrap : (setupToken 3 8 { loaded := true } [piece 16 (-8) 1]).2.1 = .overrun := by decide

/-- The error code of EL3 is cut to 32 bits: an error whose low half is zero passes for success, with
the lengths of the call before, here none. -/
theorem C69_token_code : (setupToken 3 4096 { loaded := true } [{ piece 16 0 1 with x0 := 0x100000000 }]).2.1 = .assert := by decide

/-- The private key: after the function has returned, however it went, no byte of it is left in the
shared buffer and the lock is free; the key is usable exactly if the function succeeded, and the key
store holds one more key exactly then. Holds if EL3 keeps to the interface. -/
theorem C69_key_clean {stale : BitVec 64} {lib : Lib} {s : Att} {r : Resp} (hk : s.loaded = false)
    (hkey : s.key = none) (hc : r.x0 = (r.x0.setWidth 32).signExtend 64) (hp : r.x0 = 0 → r.x1.toNat ≤ 4096) (hcose : lib.encoded ≠ some 0) :
    let q := initKey false stale lib s r
    (q.2 = .ok ∨ q.2 = .einval) ∧ q.1.locked = false ∧
    (r.x0 = 0 → bytes q.1.shared r.x1.toNat = List.replicate r.x1.toNat 0 ∧ ∀ i, r.x1.toNat ≤ i → q.1.shared i = r.buf i) ∧
    (q.1.loaded = true ↔ q.2 = .ok) ∧
    (q.2 = .ok ↔ r.x0 = 0 ∧ lib.imported = true ∧ lib.encoded ≠ none ∧ lib.hashed ≠ none) ∧
    (q.2 = .ok → signingKey false q.1 = some (r.buf, r.x1.toNat) ∧ q.1.stored = s.stored + 1 ∧ lib.hashed = some q.1.hash) ∧
    (q.2 ≠ .ok → signingKey false q.1 = none ∧ q.1.stored = s.stored ∧ q.1.key = none) := by
  unfold initKey getKey
  rw [if_neg (by simp [hk])]
  by_cases h0 : r.x0 = 0
  · have hx : ¬ r.x0 ≠ 0 := by simp [h0]
    have hn : r.x1.toNat ≤ sharedSize := hp h0
    have hwipe : bytes (put r.buf 0 (fun _ => 0) r.x1.toNat) r.x1.toNat = List.replicate r.x1.toNat 0 := by
      apply List.ext_getElem
      · simp
      · intro i hi hi'
        have : i < r.x1.toNat := by simpa using hi'
        simp [bytes, put, this]
    have hrest : ∀ i, r.x1.toNat ≤ i → put r.buf 0 (fun _ => 0) r.x1.toNat i = r.buf i := by
      intro i hi; unfold put; rw [if_neg (by omega)]
    rw [if_neg hx]
    dsimp only
    rw [if_neg (by simp), if_neg (by simp; omega)]
    cases hi : lib.imported
    · simp [h0, hk, hkey, signingKey]; exact ⟨hwipe, hrest⟩
    · simp only [if_true, Bool.not_true, Bool.false_eq_true, if_false]
      cases he : lib.encoded with
      | none => simp [h0, hk, signingKey]; exact ⟨hwipe, hrest⟩
      | some l =>
        have hl0 : l ≠ 0 := fun e => hcose (by rw [he, e])
        simp only [hl0, if_false]
        cases hh : lib.hashed with
        | none => simp [h0, hk, signingKey]; exact ⟨hwipe, hrest⟩
        | some b => simp [h0, signingKey]; exact ⟨hwipe, hrest⟩
  · have h2 : r.x0.setWidth 32 ≠ (0 : BitVec 32) := fun e => h0 (by rw [hc, e]; decide)
    rw [if_pos h0]
    dsimp only
    rw [if_pos h2]
    simp [hk, hkey, signingKey]
    exact ⟨fun e => absurd e h0, fun e => absurd e h0⟩

example : (initKey false 7 ⟨true, some 80, some (fun _ => 5)⟩ {} (piece 48 0 1)).2 = .ok ∧
    (initKey false 7 ⟨true, none, some (fun _ => 5)⟩ {} (piece 48 0 1)).2 = .einval ∧
    (initKey false 7 ⟨true, some 80, some (fun _ => 5)⟩ {} (piece 48 0 1)).1.shared 47 = 0 ∧ (piece 48 0 1).buf 47 = 48 := by decide

/-- A key is read or copied out of bounds exactly if EL3 claims that it is longer than the shared
buffer, or, with signing in EL3, longer than an encoded public key of the curve can be. -/
theorem C69_key_fits {el3Sign : Bool} {stale : BitVec 64} {lib : Lib} {s : Att} {r : Resp}
    (hc : r.x0 = (r.x0.setWidth 32).signExtend 64) :
    (initKey el3Sign stale lib s r).2 = .overrun ↔
      s.loaded = false ∧ r.x0 = 0 ∧ (if el3Sign then 97 + 32 else 4096) < r.x1.toNat := by
  have hsz : sharedSize = 4096 := rfl
  have hpub : maxPub = 129 := rfl
  unfold initKey getKey
  cases hk : s.loaded with
  | true => simp
  | false =>
    by_cases h0 : r.x0 = 0
    · simp only [h0, ne_eq, not_true, if_false, Bool.false_eq_true, hsz, hpub, true_and]
      by_cases hb : r.x1.toNat > 4096 ∨ (el3Sign = true ∧ r.x1.toNat > 129)
      · rw [if_pos hb]
        cases el3Sign <;> simp at hb ⊢ <;> omega
      · rw [if_neg hb]
        have hn : ¬ (if el3Sign then 97 + 32 else 4096) < r.x1.toNat := by
          cases el3Sign <;> simp at hb ⊢ <;> omega
        simp only [hn, iff_false]
        cases lib.imported
        · simp
        · cases lib.encoded with
          | none => simp
          | some l =>
            by_cases hl : l = 0
            · simp [hl]
            · cases lib.hashed <;> simp [hl]
    · have h2 : r.x0.setWidth 32 ≠ (0 : BitVec 32) := fun e => h0 (by rw [hc, e]; decide)
      rw [if_neg (by simp), if_pos h0]
      dsimp only
      rw [if_pos h2]
      exact ⟨fun h => (by cases h), fun h => absurd h.2.1 h0⟩

example : (initKey true 7 ⟨true, some 80, some (fun _ => 5)⟩ {} (piece 129 0 1)).2 = .ok ∧
    (initKey true 7 ⟨true, some 80, some (fun _ => 5)⟩ {} (piece 130 0 1)).2 = .overrun := by decide

/-- The key is taken from EL3 once: later calls change nothing. -/
theorem C69_key_once {el3Sign : Bool} {stale : BitVec 64} {lib : Lib} {s : Att} {r : Resp} (h : s.loaded = true) :
    initKey el3Sign stale lib s r = (s, .einval) := by
  unfold initKey; rw [if_pos h]

example : (initKey false 7 ⟨true, some 80, some (fun _ => 5)⟩ {} (piece 48 0 1)).1.loaded = true := by decide

/-- With signing in EL3, RMM never gives out a key to sign with. -/
theorem C69_key_el3 (s : Att) : signingKey true s = none := rfl

/-- An error of EL3 whose low half is zero passes for success with a length that was never set: what
is then imported, and wiped, is whatever length the stack held. -/
theorem C69_key_code : (initKey false 0x2000 ⟨true, some 80, some (fun _ => 5)⟩ {} { piece 48 0 1 with x0 := 0x100000000 }).2 = .overrun ∧
    ∃ s, initKey false 1 ⟨true, some 80, some (fun _ => 5)⟩ {} { piece 48 0 1 with x0 := 0x100000000 } = (s, .ok) ∧ s.shared 1 = 2 :=
  ⟨by decide, _, rfl, by decide⟩

/-- Attestation counts as initialised only with seeded generators, a key, and a whole token whose
request carried the hash of that key. -/
theorem C69_att_ready {el3Sign : Bool} {ver : BitVec 64} {size : Nat} {prng psa queue : Bool} {stale : BitVec 64} {lib : Lib} {s s' : Att}
    {rk : Resp} {rs : List Resp} {o : Out} (hi : s.init = false)
    (h : attInit el3Sign ver size prng psa queue stale lib s rk rs = (s', o)) :
    (s'.init = true ↔ o = .ok) ∧
    (o = .ok → prng = true ∧ s'.prng = true ∧ s'.loaded = true ∧ s'.token ≠ none ∧ lib.hashed = some s'.hash ∧
      ∃ s₁, s₁.hash = s'.hash ∧ (setupToken ver size s₁ rs).2.1 = .ok ∧ platToken s' = platToken (setupToken ver size s₁ rs).1) := by
  have keyFrame : ∀ s0 : Att, (initKey el3Sign stale lib s0 rk).1.init = s0.init ∧ (initKey el3Sign stale lib s0 rk).1.prng = s0.prng ∧
      ((initKey el3Sign stale lib s0 rk).2 = .ok → (initKey el3Sign stale lib s0 rk).1.loaded = true ∧
        lib.hashed = some (initKey el3Sign stale lib s0 rk).1.hash) := by
    intro s0
    unfold initKey
    split
    · simp
    · dsimp only
      split
      · simp
      · split
        · simp
        · cases lib.imported <;> cases el3Sign <;> simp <;>
            (cases lib.encoded <;> simp
             split
             · simp
             · cases lib.hashed <;> simp)
  have tokFrame : ∀ s0 : Att, (setupToken ver size s0 rs).1.init = s0.init ∧ (setupToken ver size s0 rs).1.prng = s0.prng ∧
      (setupToken ver size s0 rs).1.loaded = s0.loaded ∧ (setupToken ver size s0 rs).1.hash = s0.hash ∧
      ((setupToken ver size s0 rs).2.1 = .ok → (setupToken ver size s0 rs).1.token ≠ none) := by
    intro s0
    unfold setupToken
    split
    · simp
    · dsimp only
      generalize tokenLoop ver size _ rs = q
      obtain ⟨t, o⟩ := q
      cases o <;> simp
  revert h
  unfold attInit
  cases prng
  · intro h; cases h; simp [hi]
  · simp only [Bool.not_true, Bool.false_eq_true, if_false]
    cases psa
    · intro h; cases h; simp [hi]
    · simp only [Bool.not_true, Bool.false_eq_true, if_false]
      obtain ⟨k1, k2, k3⟩ := keyFrame { s with prng := true }
      revert k1 k2 k3
      generalize initKey el3Sign stale lib { s with prng := true } rk = q
      obtain ⟨s1, o1⟩ := q
      dsimp only
      intro k1 k2 k3
      by_cases ho : o1 = .ok
      · rw [if_neg (by simp [ho])]
        obtain ⟨l1, l2⟩ := k3 ho
        obtain ⟨t1, t2, t3, t4, t5⟩ := tokFrame s1
        by_cases ht : (setupToken ver size s1 rs).2.1 = .ok
        · rw [if_neg (by simp [ht])]
          split
          · intro h; cases h
            exact ⟨by simp [t1, k1, hi], fun h => (by cases h)⟩
          · intro h; cases h
            exact ⟨by simp, fun _ => ⟨trivial, by simp [t2, k2], by simp [t3, l1], t5 ht, by simp [t4, l2],
              s1, t4.symm, ht, rfl⟩⟩
        · rw [if_pos ht]
          intro h; cases h
          exact ⟨by simp [t1, k1, hi, ht], fun h => absurd h ht⟩
      · rw [if_pos ho]
        intro h; cases h
        exact ⟨by simp [k1, hi, ho], fun h => absurd h ho⟩

example : (attInit false 3 4096 true true true 7 ⟨true, some 80, some (fun _ => 5)⟩ {} (piece 48 0 1) talk).2 = .ok ∧
    (attInit false 3 4 true true true 7 ⟨true, some 80, some (fun _ => 5)⟩ {} (piece 48 0 1) talk).2 = .enomem := by decide

/-- A seed has the number of words asked for, and they are the values of exactly the reads of the
random number register that succeeded, in order. -/
theorem C69_seed_random {n : Nat} {a a' : List (Bool × BitVec 64)} {w : List (BitVec 64)} (h : seed n a = some (w, a')) :
    ∃ used, a = used ++ a' ∧ w = (used.filter (·.1)).map (·.2) ∧ w.length = n := seed_words n a h

example : seed 2 [(false, 0), (true, 8), (false, 0), (true, 9), (true, 1)] = some ([8, 9], [(true, 1)]) := by decide

/-- The temporary generator, drawn from `i` times. -/
def drawn {G : Type} (d : Drbg G) : Nat → G → Option (G × List (BitVec 64))
  | 0, g => d.draw g
  | i + 1, g => (d.draw g).bind fun q => drawn d i q.1

/-- Every CPU has a generator of its own, the one seeded with the draw of its number, or the
initialisation fails. -/
theorem C69_prng_per_cpu {G : Type} {d : Drbg G} {cpus : Nat} {feat : Bool} {a : List (Bool × BitVec 64)} {gs : List G}
    (h : prngInit d cpus feat a = some gs) :
    feat = true ∧ gs.length = cpus ∧ ∃ w a' g, seed 16 a = some (w, a') ∧ d.start w = some g ∧
      ∀ i (hi : i < gs.length), (drawn d i g).bind (fun q => d.start q.2) = some gs[i] := by
  have key : ∀ (n : Nat) (g : G) (l : List G), seedCpus d n g = some l →
      l.length = n ∧ ∀ i (hi : i < l.length), (drawn d i g).bind (fun q => d.start q.2) = some l[i] := by
    intro n
    induction n with
    | zero =>
      intro g l h
      cases h
      exact ⟨rfl, fun i hi => absurd hi (by simp)⟩
    | succ n ih =>
      intro g l h
      unfold seedCpus at h
      cases hd : d.draw g with
      | none => rw [hd] at h; cases h
      | some q =>
        rw [hd] at h
        cases hs : d.start q.2 with
        | none => rw [Option.bind_some, hs] at h; cases h
        | some c =>
          rw [Option.bind_some, hs, Option.bind_some] at h
          cases hr : seedCpus d n q.1 with
          | none => rw [hr] at h; cases h
          | some l' =>
            rw [hr] at h
            cases h
            obtain ⟨h1, h2⟩ := ih q.1 l' hr
            refine ⟨by simp [h1], ?_⟩
            intro i hi
            cases i with
            | zero => simp [drawn, hd, hs]
            | succ i =>
              have := h2 i (by simpa using hi)
              simpa [drawn, hd] using this
  unfold prngInit at h
  cases feat
  · cases h
  · simp only [Bool.not_true, Bool.false_eq_true, if_false] at h
    cases hs : seed 16 a with
    | none => rw [hs] at h; cases h
    | some q =>
      rw [hs, Option.bind_some] at h
      cases hg : d.start q.1 with
      | none => rw [hg] at h; cases h
      | some g =>
        rw [hg, Option.bind_some] at h
        obtain ⟨h1, h2⟩ := key cpus g gs h
        exact ⟨rfl, h1, q.1, q.2, g, rfl, hg, h2⟩

/-- A toy generator: a counter. -/
example : prngInit (G := BitVec 64) ⟨fun w => some (w.headD 0), fun g => some (g + 1, [g + 1])⟩ 3 true
    (List.replicate 20 (true, 5)) = some [6, 7, 8] := by decide

end Verif.Boot
