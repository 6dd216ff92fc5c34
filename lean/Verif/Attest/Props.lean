import Verif.Attest.Proof

/-!
# C71: the token says what is true of the Realm
-/

namespace Verif.Attest

open Cbor

/-! ## Specification -/

/-- A text of ASCII characters. -/
def ascii (s : List Char) : List Byte := s.map fun ch => BitVec.ofNat 8 ch.toNat

/-- The names of the hash algorithms in IANA's registry, and the profile of the RMM specification. -/
def sha256 : List Byte := ascii ['s', 'h', 'a', '-', '2', '5', '6']
def sha512 : List Byte := ascii ['s', 'h', 'a', '-', '5', '1', '2']
def profile : List Byte := ascii ['t', 'a', 'g', ':', 'a', 'r', 'm', '.', 'c', 'o', 'm', ',', '2', '0', '2', '3', ':', 'r', 'e', 'a', 'l', 'm', '#', '1', '.', '0', '.', '0']

namespace Spec

/-- Name and output size of a hash algorithm. -/
def hashName (algo : Nat) : List Byte := if algo = 0 then sha256 else sha512
def hashSize (algo : Nat) : Nat := if algo = 0 then 32 else 64

/-- The claims of a Realm token (RMM specification, A7.2.3.1) say the truth about the Realm: challenge,
personalisation value, hash algorithm, public key, initial measurement, extensible measurements, algorithm
of the key's hash, profile, and there is nothing else. -/
structure True (v : Item) (s : Src) (key : List Byte) : Prop where
  challenge : ∃ b, v.get 10 = some (.bytes b) ∧ b.length = 64 ∧
    ∀ i, i < 64 → (b[i]?.map BitVec.toNat) = some ((s.regs (1 + i / 8)).toNat / 2 ^ (8 * (i % 8)) % 256)
  rpv : v.get 44235 = some (.bytes s.rpv)
  algo : v.get 44236 = some (.text (hashName s.algo))
  key : v.get 44237 = some (.bytes key)
  rim : v.get 44238 = some (.bytes ((s.meas 0).take (hashSize s.algo)))
  rems : v.get 44239 = some (.array ([1, 2, 3, 4].map fun i => .bytes ((s.meas i).take (hashSize s.algo))))
  keyHash : v.get 44240 = some (.text sha256)
  prof : v.get 265 = some (.text Attest.profile)
  only : ∃ l, v = .map l ∧ l.length = 16

end Spec

/-- What C guarantees about the sizes of the arrays, and the algorithms that RMI_REALM_CREATE accepts (C21). -/
structure Sized (s : Src) : Prop where
  algo : s.algo = 0 ∨ s.algo = 1
  rpv : s.rpv.length = 64
  meas : ∀ i, (s.meas i).length = 64

/-! ## The bytes -/

def sByte (b : List Byte) : List Byte := head 2 b.length ++ b
def sText (b : List Byte) : List Byte := head 3 b.length ++ b

def remBytes (m : Nat → List Byte) (size : Nat) : (n i : Nat) → List Byte
  | 0, _ => []
  | n + 1, i => sByte ((m i).take size) ++ remBytes m size n (i + 1)

theorem emits_rems (m : Nat → List Byte) (size : Nat) : ∀ n i, Emits (addRems m size n i) n (remBytes m size n i) := by
  intro n
  induction n with
  | zero => intro i; exact emits_id
  | succ n ih =>
    intro i
    have := (emits_bytes ((m i).take size)).seq (ih (i + 1))
    rwa [Nat.add_comm 1 n] at this

/-- The claims, without the head of the map. -/
def claimsBody (s : Src) (key t1 t2 : List Byte) (size : Nat) : List Byte :=
  head 0 10 ++ (sByte (challenge s.regs) ++ (head 0 44235 ++ (sByte (s.rpv.take 64) ++ (head 0 44237 ++ (sByte key ++
    (head 0 44236 ++ (sText t1 ++ (head 0 44240 ++ (sText t2 ++ (head 0 265 ++ (sText profileStr ++
      (head 0 44238 ++ (sByte ((s.meas 0).take size) ++ (head 0 44239 ++ (head 4 4 ++ remBytes s.meas size 4 1)))))))))))))))

def claimsBytes (s : Src) (key t1 t2 : List Byte) (size : Nat) : List Byte := head 5 8 ++ claimsBody s key t1 t2 size

/-- All of the claims between opening and closing the map. -/
def inner (s : Src) (key t1 t2 : List Byte) (size : Nat) (e : Enc) : Enc :=
  closeItem 4 <| addRems s.meas size 4 1 <| openItem 4 <| addUint 44239 <|
    addBytesN 44238 ((s.meas 0).take size) <| addTextN 265 profileStr <| addTextN 44240 t2 <| addTextN 44236 t1 <|
      addBytesN 44237 key <| addBytesN 44235 (s.rpv.take 64) (addBytesN 10 (challenge s.regs) e)

theorem emits_inner (s : Src) (key t1 t2 : List Byte) (size : Nat) :
    Emits (inner s key t1 t2 size) 16 (claimsBody s key t1 t2 size) := by
  have h := ((emits_uint 10).seq (emits_bytes (challenge s.regs))).seq ((emits_uint 44235).seq (emits_bytes (s.rpv.take 64)))
  have h := h.seq ((emits_uint 44237).seq (emits_bytes key))
  have h := h.seq ((emits_uint 44236).seq (emits_text t1))
  have h := h.seq ((emits_uint 44240).seq (emits_text t2))
  have h := h.seq ((emits_uint 265).seq (emits_text profileStr))
  have h := h.seq ((emits_uint 44238).seq (emits_bytes ((s.meas 0).take size)))
  have h := h.seq ((emits_uint 44239).seq ((emits_rems s.meas size 4 1).wrap 4))
  have ha : ∀ bs, arg 4 4 bs = 4 := fun _ => rfl
  rw [ha] at h
  simp only [List.append_assoc] at h
  simp only [claimsBody, sByte, sText, List.append_assoc]
  exact h

theorem emits_claims (s : Src) (key t1 t2 : List Byte) (size : Nat) :
    Emits (fun e => closeItem 5 (inner s key t1 t2 size (openItem 5 e))) 1 (claimsBytes s key t1 t2 size) :=
  (emits_inner s key t1 t2 size).wrap 5

def tokenBytes (hdr p sig : List Byte) : List Byte :=
  head 6 18 ++ (head 4 4 ++ (sByte hdr ++ (head 5 0 ++ (sByte p ++ sByte sig))))

theorem emits_token (s : Src) (hdr key t1 t2 sig : List Byte) (size : Nat) :
    Emits (fun e => coseFinish sig (closeItem 2 (claims2 s key t1 t2 size (claims1 s (coseStart hdr e))))) 1
      (tokenBytes hdr (claimsBytes s key t1 t2 size) sig) := by
  have h1 := (emits_bytes hdr).seq (emits_id.wrap 5)
  have h2 := h1.seq (((emits_claims s key t1 t2 size)).wrap 2)
  have h3 := (emits_tag 18).seq ((h2.seq (emits_bytes sig)).wrap 4)
  have a1 : arg 5 0 ([] : List Byte) = 0 := rfl
  have a2 : ∀ k bs, arg 2 k bs = bs.length := fun _ _ => rfl
  have a3 : ∀ k bs, arg 4 k bs = k := fun _ _ => rfl
  rw [a1, a2, a3] at h3
  simp only [List.append_assoc, List.append_nil] at h3
  simp only [tokenBytes, sByte, List.append_assoc]
  exact h3

/-! ## What they decode to -/

theorem dec_rems (m : Nat → List Byte) (size : Nat) (hs : size < 2 ^ 64) :
    DecL 1 ([1, 2, 3, 4].map fun i => .bytes ((m i).take size)) (remBytes m size 4 1) := by
  have hb : ∀ i, Dec 1 (.bytes ((m i).take size)) (sByte ((m i).take size)) := by
    intro i
    apply Dec.bytes
    have := List.length_take_le size (m i)
    omega
  exact .cons (Nat.le_refl _) (hb 1) (.cons (Nat.le_refl _) (hb 2) (.cons (Nat.le_refl _) (hb 3) (.cons (Nat.le_refl _) (hb 4) (.nil 1))))

theorem challenge_length (regs : Nat → BitVec 64) : (challenge regs).length = 64 := by simp [challenge]

theorem dec_claims (s : Src) (key t1 t2 : List Byte) (size : Nat) (hs : size < 2 ^ 64) (hk : key.length < 2 ^ 64)
    (h1 : t1.length < 2 ^ 64) (h2 : t2.length < 2 ^ 64) :
    Dec 3 (.map [.uint 10, .bytes (challenge s.regs), .uint 44235, .bytes (s.rpv.take 64), .uint 44237, .bytes key,
        .uint 44236, .text t1, .uint 44240, .text t2, .uint 265, .text profileStr, .uint 44238, .bytes ((s.meas 0).take size),
        .uint 44239, .array ([1, 2, 3, 4].map fun i => .bytes ((s.meas i).take size))]) (claimsBytes s key t1 t2 size) := by
  have u : ∀ n, n < 2 ^ 64 → Dec 1 (.uint n) (head 0 n) := fun n h => .uint h
  have b : ∀ x : List Byte, x.length < 2 ^ 64 → Dec 1 (.bytes x) (sByte x) := fun x h => .bytes h
  have t : ∀ x : List Byte, x.length < 2 ^ 64 → Dec 1 (.text x) (sText x) := fun x h => .text h
  have l12 : (1 : Nat) ≤ 2 := by decide
  refine Dec.map (d := 2) (n := 8) rfl (by decide) ?_
  unfold claimsBody
  refine .cons l12 (u _ (by decide)) (.cons l12 (b _ (by rw [challenge_length]; decide)) ?_)
  refine .cons l12 (u _ (by decide)) (.cons l12 (b _ ?_) ?_)
  · have := List.length_take_le 64 s.rpv; omega
  refine .cons l12 (u _ (by decide)) (.cons l12 (b _ hk) ?_)
  refine .cons l12 (u _ (by decide)) (.cons l12 (t _ h1) ?_)
  refine .cons l12 (u _ (by decide)) (.cons l12 (t _ h2) ?_)
  refine .cons l12 (u _ (by decide)) (.cons l12 (t _ (by decide)) ?_)
  refine .cons l12 (u _ (by decide)) (.cons l12 (b _ ?_) ?_)
  · have := List.length_take_le size (s.meas 0); omega
  refine .cons l12 (u _ (by decide)) ?_
  have hr : Dec 2 (.array ([1, 2, 3, 4].map fun i => .bytes ((s.meas i).take size))) (head 4 4 ++ remBytes s.meas size 4 1) :=
    .array rfl (by decide) (dec_rems s.meas size hs)
  have := DecL.cons (Nat.le_refl 2) hr (.nil 2)
  rwa [List.append_nil] at this

theorem dec_token {hdr p sig : List Byte} (h1 : hdr.length < 2 ^ 64) (h2 : p.length < 2 ^ 64) (h3 : sig.length < 2 ^ 64) :
    Dec 4 (.tag 18 (.array [.bytes hdr, .map [], .bytes p, .bytes sig])) (tokenBytes hdr p sig) := by
  refine .tag (by decide) (.array rfl (by decide) ?_)
  have l12 : (1 : Nat) ≤ 2 := by decide
  have hm : Dec 1 (.map []) (head 5 0) := by
    have := Dec.map (d := 0) (n := 0) (l := []) rfl (by decide) (.nil 0)
    rwa [List.append_nil] at this
  refine .cons l12 (.bytes h1) (.cons l12 hm (.cons l12 (.bytes h2) ?_))
  have := DecL.cons (d := 2) l12 (Dec.bytes h3) (.nil 2)
  rwa [List.append_nil] at this

/-! ## Sizes -/

theorem head_le (m n : Nat) (h : n < 2 ^ 16) : (head m n).length ≤ 3 := by
  rw [head_length]; split <;> (try split) <;> omega

theorem head_one (m n : Nat) (h : n < 24) : (head m n).length = 1 := by rw [head_length, if_pos h]
theorem profile_length : profileStr.length = 28 := rfl

section
attribute [local irreducible] head sByte sText remBytes profileStr challenge

theorem claims_le {s : Src} {key t1 t2 : List Byte} {size : Nat} (hk : key.length ≤ 129)
    (h1 : t1.length ≤ 7) (h2 : t2.length ≤ 7) (hz : size ≤ 64) : (claimsBytes s key t1 t2 size).length ≤ 700 := by
  have hsb : ∀ b : List Byte, b.length < 2 ^ 16 → (sByte b).length ≤ b.length + 3 := by
    intro b hb; unfold sByte; have := head_le 2 b.length hb; rw [List.length_append]; omega
  have hst : ∀ b : List Byte, b.length < 2 ^ 16 → (sText b).length ≤ b.length + 3 := by
    intro b hb; unfold sText; have := head_le 3 b.length hb; simp; omega
  have hm : ∀ i, (sByte ((s.meas i).take size)).length ≤ 67 := by
    intro i
    have h1 := List.length_take_le size (s.meas i)
    have := hsb ((s.meas i).take size) (by omega)
    omega
  have e1 := hsb (challenge s.regs) (by rw [challenge_length]; decide)
  rw [challenge_length] at e1
  have e2 := hsb (s.rpv.take 64) (by have := List.length_take_le 64 s.rpv; omega)
  have e2' := List.length_take_le 64 s.rpv
  have e3 := hsb key (by omega)
  have e4 := hst t1 (by omega)
  have e5 := hst t2 (by omega)
  have e6' := profile_length
  have e6 := hst profileStr (by omega)
  have hu : ∀ n, n < 2 ^ 16 → (head 0 n).length ≤ 3 := fun n h => head_le 0 n h
  have u1 := hu 10 (by decide)
  have u2 := hu 44235 (by decide)
  have u3 := hu 44236 (by decide)
  have u4 := hu 44237 (by decide)
  have u5 := hu 44238 (by decide)
  have u6 := hu 44239 (by decide)
  have u7 := hu 44240 (by decide)
  have u8 := hu 265 (by decide)
  have u9 : (head 5 8).length = 1 := head_one _ _ (by decide)
  have u10 : (head 4 4).length = 1 := head_one _ _ (by decide)
  have r : (remBytes s.meas size 4 1).length ≤ 268 := by
    have m1 := hm 1
    have m2 := hm 2
    have m3 := hm 3
    have m4 := hm 4
    simp only [remBytes, List.length_append, List.length_nil, Nat.reduceAdd]
    omega
  have m0 := hm 0
  have le1 : ∀ {a b x y : Nat}, a ≤ x → b ≤ y → a + b ≤ x + y := Nat.add_le_add
  simp only [claimsBytes, claimsBody, List.length_append]
  refine Nat.le_trans (le1 (Nat.le_of_eq u9) <| le1 u1 <| le1 e1 <| le1 u2 <| le1 (Nat.le_trans e2 (Nat.add_le_add_right e2' 3)) <|
    le1 u4 <| le1 (Nat.le_trans e3 (Nat.add_le_add_right hk 3)) <| le1 u3 <| le1 (Nat.le_trans e4 (Nat.add_le_add_right h1 3)) <|
    le1 u7 <| le1 (Nat.le_trans e5 (Nat.add_le_add_right h2 3)) <| le1 u8 <| le1 (Nat.le_trans e6 (Nat.add_le_add_right (Nat.le_of_eq e6') 3)) <|
    le1 u5 <| le1 m0 <| le1 u6 <| le1 (Nat.le_of_eq u10) r) (by decide)

theorem token_le {hdr p sig : List Byte} (h1 : hdr.length ≤ 128) (h2 : p.length ≤ 700) (h3 : sig.length ≤ 132) :
    (tokenBytes hdr p sig).length ≤ 1024 := by
  have hsb : ∀ b : List Byte, b.length < 2 ^ 16 → (sByte b).length ≤ b.length + 3 := by
    intro b hb; unfold sByte; have := head_le 2 b.length hb; simp; omega
  have e1 := hsb hdr (by omega)
  have e2 := hsb p (by omega)
  have e3 := hsb sig (by omega)
  have e4 : (head 6 18).length = 1 := head_one _ _ (by decide)
  have e5 : (head 4 4).length = 1 := head_one _ _ (by decide)
  have e6 : (head 5 0).length = 1 := head_one _ _ (by decide)
  simp only [tokenBytes, List.length_append]
  omega

end

/-! ## Properties -/

/-- The payload for a Realm. -/
def payloadOf (s : Src) (key : List Byte) : List Byte :=
  claimsBytes s key (Spec.hashName s.algo) sha256 (Spec.hashSize s.algo)

theorem sized_algo {s : Src} (hs : Sized s) :
    algoText s.algo = some (Spec.hashName s.algo) ∧ measSize s.algo = some (Spec.hashSize s.algo) ∧
      (Spec.hashName s.algo).length = 7 ∧ Spec.hashSize s.algo ≤ 64 ∧ algoText 0 = some sha256 := by
  rcases hs.algo with h | h <;> rw [h] <;> decide

/-- The encoder when the payload is complete. -/
def enc0 (s : Src) (hdr key : List Byte) : Enc :=
  claims2 s key (Spec.hashName s.algo) sha256 (Spec.hashSize s.algo) (claims1 s (coseStart hdr (Enc.init 1024)))

theorem enc0_wrapped {s : Src} (hs : Sized s) {hdr key : List Byte} (hh : hdr.length ≤ 128) (hk : key.length ≤ 129) :
    wrapped (enc0 s hdr key) = payloadOf s key := by
  obtain ⟨a1, a2, a3, a4, a5⟩ := sized_algo hs
  have hst : (coseStart hdr (Enc.init 1024)).err = none ∧ (coseStart hdr (Enc.init 1024)).cap = 1024 ∧
      (coseStart hdr (Enc.init 1024)).out = head 6 18 ++ (sByte hdr ++ head 5 0) := by
    have t := ((emits_tag 18).2 (Enc.init 1024) rfl (by decide)).1 (by decide)
    have h1 := (emits_bytes hdr).seq (emits_id.wrap 5)
    have ho : openItem 4 (addTag 18 (Enc.init 1024)) = ⟨1024, head 6 18, [⟨4, 1, 0⟩], none⟩ := by
      rw [t]; rfl
    have hl : (sByte hdr).length ≤ hdr.length + 3 := by
      unfold sByte; have := head_le 2 hdr.length (by omega); simp; omega
    have h2 := (h1.2 ⟨1024, head 6 18, [⟨4, 1, 0⟩], none⟩ rfl (by decide)).1 (by
      have e4 : (head 6 18).length = 1 := head_one _ _ (by decide)
      have e6 : (head 5 (arg 5 0 ([] : List Byte))).length = 1 := head_one _ _ (by decide)
      unfold sByte at hl
      simp only [List.length_append, List.length_nil] at hl ⊢
      omega)
    have h3 : coseStart hdr (Enc.init 1024) = _ := (congrArg (fun x => closeItem 5 (openItem 5 (addBytes hdr x))) ho).trans h2
    rw [h3]
    refine ⟨rfl, rfl, ?_⟩
    simp [sByte, arg]
  have hw := (emits_claims s key (Spec.hashName s.algo) sha256 (Spec.hashSize s.algo)).wrapped 2 hst.1 (by
    have h1 := claims_le (s := s) hk (Nat.le_of_eq a3) (by decide : sha256.length ≤ 7) a4
    have hl : (sByte hdr).length ≤ hdr.length + 3 := by
      unfold sByte; have := head_le 2 hdr.length (by omega); simp; omega
    have e4 : (head 6 18).length = 1 := head_one _ _ (by decide)
    have e6 : (head 5 0).length = 1 := head_one _ _ (by decide)
    rw [hst.2.1, hst.2.2]
    simp only [List.length_append]
    omega)
  exact hw

theorem create_eq {s : Src} (hs : Sized s) {hdr key : List Byte} {c : Ctx} (hc : c.state = .init) :
    realmTokenCreate (some hdr) (some key) s 1024 c = some (true, ⟨.sign, closeItem 2 (enc0 s hdr key), wrapped (enc0 s hdr key)⟩) := by
  obtain ⟨a1, a2, a3, a4, a5⟩ := sized_algo hs
  simp only [realmTokenCreate, hc, a1, a2, a5, ne_eq, not_true_eq_false, if_false, enc0]


theorem enc0_finish (s : Src) (hdr k sig : List Byte) : finish (coseFinish sig (closeItem 2 (enc0 s hdr k))) =
    if (tokenBytes hdr (payloadOf s k) sig).length ≤ 1024 then .ok (tokenBytes hdr (payloadOf s k) sig) else .error .tooSmall :=
  (emits_token s hdr k (Spec.hashName s.algo) sha256 sig (Spec.hashSize s.algo)).finish 1024

attribute [local irreducible] enc0

theorem challenge_byte (regs : Nat → BitVec 64) (i : Nat) (hi : i < 64) :
    ((challenge regs)[i]?.map BitVec.toNat) = some ((regs (1 + i / 8)).toNat / 2 ^ (8 * (i % 8)) % 256) := by
  simp [challenge, hi, BitVec.extractLsb'_toNat, Nat.shiftRight_eq_div_pow]

theorem payload_true {s : Src} (hs : Sized s) {key : List Byte} (hk : key.length ≤ 129) :
    ∃ v, parse (payloadOf s key) = some v ∧ Spec.True v s key := by
  obtain ⟨a1, a2, a3, a4, a5⟩ := sized_algo hs
  have hd := dec_claims s key (Spec.hashName s.algo) sha256 (Spec.hashSize s.algo) (by omega) (by omega) (by omega) (by decide)
  refine ⟨_, hd.parse ?_, ?_⟩
  · have h1 := head_one 5 8 (by decide)
    have h2 := head_pos 0 10
    have h3 := head_pos 0 44235
    show 3 ≤ (claimsBytes s key (Spec.hashName s.algo) sha256 (Spec.hashSize s.algo)).length + 1
    unfold claimsBytes claimsBody
    rw [List.length_append, List.length_append]
    omega
  · have hr : s.rpv.take 64 = s.rpv := List.take_of_length_le (by rw [hs.rpv])
    constructor
    · exact ⟨_, rfl, challenge_length _, challenge_byte _⟩
    · rw [hr]; rfl
    all_goals first | rfl | exact ⟨_, rfl, rfl⟩

/-- **C71.** RSI_ATTESTATION_TOKEN_INIT never trips an assertion. It succeeds exactly if signing can
start and the key is there, and then the string to be signed holds the truth about the Realm at that
moment and nothing else. -/
theorem C71_init {s : Src} (hs : Sized s) (heap : Bool) (start key : Option (List Byte)) (c : Ctx)
    (hh : ∀ h, start = some h → h.length ≤ 128) (hk : ∀ k, key = some k → k.length ≤ 129) :
    ∃ ok c', tokenInit heap start key s c = some (ok, c') ∧
      (ok = true ↔ (c.state = .init ∨ heap = true) ∧ start.isSome ∧ key.isSome) ∧
      (ok = true → c'.state = .sign ∧ ∃ k, key = some k ∧ ∃ v, parse c'.payload = some v ∧ Spec.True v s k) := by
  have hctx : ∀ b c1, ctxInit heap c = (b, c1) → (b = true ↔ c.state = .init ∨ heap = true) ∧ (b = true → c1.state = .init) := by
    intro b c1 h
    unfold ctxInit at h
    by_cases hc : c.state = .init
    · simp [hc] at h; obtain ⟨rfl, rfl⟩ := h; simp [hc]
    · cases heap
      · simp [hc] at h; obtain ⟨rfl, rfl⟩ := h; simp [hc]
      · simp [hc] at h; obtain ⟨rfl, rfl⟩ := h; simp
  unfold tokenInit
  generalize hcx : ctxInit heap c = r
  obtain ⟨b, c1⟩ := r
  obtain ⟨h1, h2⟩ := hctx b c1 hcx
  cases b with
  | false =>
    refine ⟨false, c1, rfl, ?_, by simp⟩
    have : ¬ (c.state = .init ∨ heap = true) := fun h => by have := h1.2 h; cases this
    simp [this]
  | true =>
    have hi := h2 rfl
    have h3 := h1.1 rfl
    cases start with
    | none => exact ⟨false, c1, by simp [realmTokenCreate, hi], by simp, by simp⟩
    | some hdr =>
      cases key with
      | none => exact ⟨false, _, by simp only [realmTokenCreate, hi, ne_eq, not_true_eq_false, if_false]; rfl, by simp, by simp⟩
      | some k =>
        refine ⟨true, ⟨.sign, closeItem 2 (enc0 s hdr k), wrapped (enc0 s hdr k)⟩, create_eq hs hi, by simp [h3], fun _ => ⟨rfl, k, rfl, ?_⟩⟩
        show ∃ v, parse (wrapped (enc0 s hdr k)) = some v ∧ _
        rw [enc0_wrapped hs (hh _ rfl) (hk _ rfl)]
        exact payload_true hs (hk _ rfl)

/-- **C71.** After that, whatever else happens, signing covers that string and no other, can be called again as long as it
is not finished, and then gives a token that fits in the buffer and consists of header, string and signature. -/
theorem C71_sign {s : Src} (hs : Sized s) {heap : Bool} {start key : Option (List Byte)} {c c' : Ctx}
    (hh : ∀ h, start = some h → h.length ≤ 128) (hk : ∀ k, key = some k → k.length ≤ 129)
    (h : tokenInit heap start key s c = some (true, c')) (signer : List Byte → Sig) :
    (signer c'.payload = .busy → tokenSign signer c' = (.progress, c', [])) ∧
    (signer c'.payload = .fail → tokenSign signer c' = (.cose, c', [])) ∧
    ∀ sig, signer c'.payload = .done sig → sig.length ≤ 132 →
      ∃ hdr tok c'', start = some hdr ∧ tokenSign signer c' = (.success, c'', tok) ∧ c''.state = .create ∧ tok.length ≤ 1024 ∧
        parse tok = some (.tag 18 (.array [.bytes hdr, .map [], .bytes c'.payload, .bytes sig])) := by
  obtain ⟨hdr, k, rfl, rfl, rfl⟩ : ∃ hdr k, start = some hdr ∧ key = some k ∧
      c' = ⟨.sign, closeItem 2 (enc0 s hdr k), wrapped (enc0 s hdr k)⟩ := by
    unfold tokenInit at h
    generalize hcx : ctxInit heap c = r at h
    obtain ⟨b, c1⟩ := r
    cases b with
    | false => simp at h
    | true =>
      simp only at h
      by_cases hi : c1.state = .init
      · cases start with
        | none => simp [realmTokenCreate, hi] at h
        | some hdr =>
          cases key with
          | none => simp [realmTokenCreate, hi] at h
          | some k =>
            rw [create_eq hs hi] at h
            refine ⟨hdr, k, rfl, rfl, ?_⟩
            have := (Prod.mk.inj (Option.some.inj h)).2
            exact this.symm
      · simp [realmTokenCreate, hi] at h
  have hp := enc0_wrapped hs (hh _ rfl) (hk _ rfl)
  obtain ⟨a1, a2, a3, a4, a5⟩ := sized_algo hs
  have hpl : (payloadOf s k).length ≤ 700 := claims_le (s := s) (hk _ rfl) (Nat.le_of_eq a3) (by decide) a4
  rw [hp]
  simp only
  refine ⟨fun hb => ?_, fun hb => ?_, fun sig hb hl => ?_⟩
  · simp [tokenSign, hb]
  · simp [tokenSign, hb]
  · have hf := enc0_finish s hdr k sig
    have hlen : (tokenBytes hdr (payloadOf s k) sig).length ≤ 1024 := token_le (hh _ rfl) hpl hl
    rw [if_pos hlen] at hf
    refine ⟨hdr, tokenBytes hdr (payloadOf s k) sig, ⟨.create, coseFinish sig (closeItem 2 (enc0 s hdr k)), payloadOf s k⟩, rfl, ?_, rfl, hlen, ?_⟩
    · simp only [tokenSign, ne_eq, not_true_eq_false, if_false, hb, hf]
    · have hhl := hh _ rfl
      refine (dec_token (by omega) (by omega) (by omega)).parse ?_
      have h1 := head_pos 6 18
      have h2 := head_pos 4 4
      have h3 := head_pos 5 0
      unfold tokenBytes
      simp only [List.length_append]
      omega

/-- Size of a byte string in CBOR. -/
def Spec.size (n : Nat) : Nat :=
  n + (if n < 24 then 1 else if n < 2 ^ 8 then 2 else if n < 2 ^ 16 then 3 else if n < 2 ^ 32 then 5 else 9)

/-- **C71.** The token handed to the Realm holds the platform token and the Realm token, and is made
exactly if both fit in the buffer. -/
theorem C71_cca (p tok : List Byte) (cap : Nat) (c : Ctx) (hc : c.state = .create) (hp : p.length < 2 ^ 64) (ht : tok.length < 2 ^ 64) :
    (Spec.size p.length + Spec.size tok.length + 10 ≤ cap →
      ∃ out, ccaCreate (some p) cap tok c = (.success, { c with state := .notStarted }, out) ∧
        parse out = some (.tag 399 (.map [.uint 44234, .bytes p, .uint 44241, .bytes tok]))) ∧
    (cap < Spec.size p.length + Spec.size tok.length + 10 → ccaCreate (some p) cap tok c = (.cca, c, [])) := by
  have hm := ((emits_uint 44234).seq (emits_bytes p)).seq ((emits_uint 44241).seq (emits_bytes tok))
  have he := ((emits_tag 399).seq (hm.wrap 5)).finish cap
  have ha : ∀ bs, arg 5 (1 + 1 + (1 + 1)) bs = 2 := fun _ => rfl
  rw [ha] at he
  generalize hbs : head 6 399 ++ (head 5 2 ++ (head 0 44234 ++ (head 2 p.length ++ p) ++ (head 0 44241 ++ (head 2 tok.length ++ tok)))) = bs at he
  have hfin : finish (closeItem 5 (addBytesN 44241 tok (addBytesN 44234 p (openItem 5 (addTag 399 (Enc.init cap)))))) =
      if bs.length ≤ cap then .ok bs else .error .tooSmall := he
  have hlen : bs.length = Spec.size p.length + Spec.size tok.length + 10 := by
    have l1 : (head 6 399).length = 3 := by rw [head_length]; rfl
    have l2 : (head 5 2).length = 1 := head_one _ _ (by decide)
    have l3 : (head 0 44234).length = 3 := by rw [head_length]; rfl
    have l4 : (head 0 44241).length = 3 := by rw [head_length]; rfl
    rw [← hbs]
    unfold Spec.size
    simp only [List.length_append, l1, l2, l3, l4]
    rw [head_length 2 p.length, head_length 2 tok.length]
    generalize (if p.length < 24 then 1 else if p.length < 2 ^ 8 then 2 else if p.length < 2 ^ 16 then 3 else if p.length < 2 ^ 32 then 5 else 9) = x
    generalize (if tok.length < 24 then 1 else if tok.length < 2 ^ 8 then 2 else if tok.length < 2 ^ 16 then 3 else if tok.length < 2 ^ 32 then 5 else 9) = y
    omega
  unfold ccaCreate
  rw [if_neg (by simp [hc])]
  simp only [hfin]
  rw [← hlen]
  constructor
  · intro h
    rw [if_pos h]
    refine ⟨bs, rfl, ?_⟩
    have hd : Dec 3 (.tag 399 (.map [.uint 44234, .bytes p, .uint 44241, .bytes tok])) bs := by
      rw [← hbs]
      refine .tag (by decide) (.map (n := 2) rfl (by decide) ?_)
      rw [List.append_assoc]
      have l11 : (1 : Nat) ≤ 1 := by decide
      refine .cons l11 (.uint (by decide)) (.cons l11 (.bytes hp) (.cons l11 (.uint (by decide)) ?_))
      have := DecL.cons (d := 1) l11 (Dec.bytes ht) (.nil 1)
      rwa [List.append_nil] at this
    exact hd.parse (by rw [hlen]; omega)
  · intro h
    rw [if_neg (by omega)]

/-- The default sizes do not fit together: the build accepts a platform token of ATTEST_PLAT_TOKEN_SIZE = 0x1000
bytes with a buffer of RMM_CCA_TOKEN_BUFFER = 1 page (lib/attestation/CMakeLists.txt:28-31 compares only
these two), and boot accepts it (C69), but then no Realm ever gets a token. -/
theorem C71_default_size (p tok : List Byte) (c : Ctx) (hc : c.state = .create) (hp : p.length = 0x1000) (ht : tok.length < 2 ^ 64) :
    ccaCreate (some p) 0x1000 tok c = (.cca, c, []) := by
  refine (C71_cca p tok 0x1000 c hc (by omega) ht).2 ?_
  unfold Spec.size
  omega

/-- **C71.** Each step is refused, without any effect, except in the state that the one before leaves; making
the token is refused without a platform token. -/
theorem C71_order (c : Ctx) :
    (c.state ≠ .init → ∀ start key s cap, realmTokenCreate start key s cap c = some (false, c)) ∧
    (c.state ≠ .sign → ∀ signer, tokenSign signer c = (.state, c, [])) ∧
    (c.state ≠ .create → ∀ p cap tok, ccaCreate p cap tok c = (.state, c, [])) ∧
    (c.state = .create → ∀ cap tok, ccaCreate none cap tok c = (.cca, c, [])) := by
  refine ⟨fun h => ?_, fun h => ?_, fun h => ?_, fun h => ?_⟩
  · intro start key s cap; simp [realmTokenCreate, h]
  · intro signer; simp [tokenSign, h]
  · intro p cap tok; simp [ccaCreate, h]
  · intro cap tok; simp [ccaCreate, h]

/-! ## An example -/

def demoSrc : Src :=
  ⟨0, fun i => List.replicate 64 (BitVec.ofNat 8 i), List.replicate 64 0x55, fun i => BitVec.ofNat 64 (0x0102030405060708 * i)⟩

example : Sized demoSrc := ⟨.inl rfl, rfl, fun _ => by simp [demoSrc]⟩

example : (tokenInit true (some [0xa1, 1, 0x38, 0x22]) (some (List.replicate 129 0x77)) demoSrc ⟨.notStarted, Enc.init 0, []⟩).map
    (fun r => (r.1, r.2.payload.length, r.2.payload.take 6)) = some (true, 503, [0xa8, 0x0a, 0x58, 0x40, 0x08, 0x07]) := by decide +kernel

example : (tokenInit true (some [0xa1, 1, 0x38, 0x22]) (some (List.replicate 129 0x77)) demoSrc ⟨.notStarted, Enc.init 0, []⟩).map
    (fun r => let t := tokenSign (fun _ => .done (List.replicate 96 0xee)) r.2
              (t.1, t.2.2.length, (ccaCreate (some (List.replicate 500 1)) 0x1000 t.2.2 t.2.1).2.2.length)) =
    some (.success, 612, 1128) := by decide +kernel

end Verif.Attest
