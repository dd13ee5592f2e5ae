import Verif.Props.ExamplesAny
import Verif.Props.RealMain

/-!
# C76, C77: the example programs with OpenSSL and with PSA
-/

namespace TCose.Props
open TCose Spec ExampleCode SignVerifyTest SuiteTest Spec.Examples

/-- OpenSSL makes a key that works for `alg` on the curve named by `data`. -/
structure Makes (G : EvpGen) (L : Ossl.Lib) (alg : Int) (data : KeyData) : Prop where
  ctx : G.ctxNew (evpOf data) ≠ 0
  init : 0 < G.init (G.ctxNew (evpOf data))
  curve : G.curve (G.ctxNew (evpOf data)) data = 1
  status : (G.keygen (G.ctxNew (evpOf data)) G.pkeyNew).1 = 1
  works : Spec.Ossl.KeyFor L (G.keygen (G.ctxNew (evpOf data)) G.pkeyNew).2 alg

theorem makes_256 {G : EvpGen} {L : Ossl.Lib} (h : Makes G L (-7) .ec256) :
    (makeOsslKey G (-7)).1 = .ok ⟨.openssl, (G.keygen (G.ctxNew .ec) G.pkeyNew).2⟩ := by
  have h1 : G.ctxNew .ec ≠ 0 := h.ctx
  have h2 : 0 < G.init (G.ctxNew .ec) := h.init
  have h3 : G.curve (G.ctxNew .ec) .ec256 = 1 := h.curve
  have h4 : (G.keygen (G.ctxNew .ec) G.pkeyNew).1 = 1 := h.status
  unfold makeOsslKey
  rw [show genArgs (-7) = some (.ec, .ec256) from rfl]
  dsimp only
  rw [if_neg h1, if_neg (by omega), if_neg (fun x => x.2 h3), if_neg (fun x => x h4)]

theorem makes_25519 {G : EvpGen} {L : Ossl.Lib} (h : Makes G L (-8) .ed25519) :
    (makeOsslKey G (-8)).1 = .ok ⟨.openssl, (G.keygen (G.ctxNew .ed25519) G.pkeyNew).2⟩ := by
  have h1 : G.ctxNew .ed25519 ≠ 0 := h.ctx
  have h2 : 0 < G.init (G.ctxNew .ed25519) := h.init
  have h4 : (G.keygen (G.ctxNew .ed25519) G.pkeyNew).1 = 1 := h.status
  unfold makeOsslKey
  rw [show genArgs (-8) = some (.ed25519, .ed25519) from rfl]
  dsimp only
  rw [if_neg h1, if_neg (by omega), if_neg (fun x => absurd x.1 (by decide)), if_neg (fun x => x h4)]

/-- A run that went well and printed these octets and sizes. -/
def Well (r : Run) (d : List (String × Bytes)) (s : List (String × Nat)) : Prop :=
  r.code = 0 ∧ allWell r.acts = true ∧ dumps r.acts = d ∧ sizes r.acts = s

/-- **C76 and C77 with OpenSSL.** If OpenSSL makes keys that work, and there is memory, each of
the three examples of the OpenSSL program goes well and prints a message with a signature of
64 octets that `t_cose` accepts with the key, and its payload. The arrays have 300 octets. -/
theorem C76_openssl {cfg : Config} {L : Ossl.Lib} {D : Int → Bytes → Bytes} {A : L.Md → Int → Bytes → Prop}
    (hw : Spec.Ossl.Works L) (hi : ∀ r s, L.i2d r s = some (derSig r s)) (hf : Spec.Ossl.Fits L)
    (hL : Spec.Ossl.Hashing L D A) (he : cfg.disableEDDSA = false) {G : Nat → EvpGen}
    (h0 : Makes (G 0) L (-7) .ec256) (h1 : Makes (G 1) L (-7) .ec256) (h2 : Makes (G 2) L (-8) .ed25519)
    {H : Heap} (hH : H.Sized) (hnull : ∀ i n, H.addr i n ≠ 0) {cap : Nat} (hcap : 1000 ≤ cap)
    {m : Nat → Bytes} (hm : ∀ i, (m i).length = 300) (junk : Junk) :
    ∃ s0 s1 s2 r0 r1 r2, osslMain cfg QParams.std (Ossl.crypto cfg L) junk G H cap m = (0, [r0, r1, r2]) ∧
      s0.length = 64 ∧ s1.length = 64 ∧ s2.length = 64 ∧
      Well r0 [("Completed COSE_Sign1 message:", beingMessage s0), ("Signed payload:", beingItem.enc)]
        [("Encoded payload size", 97)] ∧
      Well r1 [("Completed COSE_Sign1 message:", beingMessage s1), ("Signed payload:", beingItem.enc)] [] ∧
      Well r2 [("Completed COSE_Sign1 message:", payloadMessage s2), ("Signed payload:", payloadText)]
        [("Encoded payload size", 7), ("Output buffer size", (payloadMessage s2).length),
          ("Auxiliary buffer size", (sigStructure (protectedHeader (-8)) [] payloadText).length),
          ("Auxiliary buffer size", (sigStructure (protectedHeader (-8)) [] payloadText).length)] := by
  have hfit := openssl_signFits cfg L hf
  have e7 : algEnabled cfg (-7) := by simp [algEnabled]
  have e8 : algEnabled cfg (-8) := by simp [algEnabled, he]
  obtain ⟨s0, a1, -, a3, a4, a5, a6⟩ := C76_one_step cfg (Ossl.crypto cfg L) D junk hfit
    (openssl_keyWorks hw hi hL e7 h0.works) (makes_256 h0) (makeOsslKey_silent _ _)
    (m1 := m 0) (m2 := m 1) (by rw [hm]; omega) (by rw [hm]; decide)
  obtain ⟨s1, b1, -, b3, b4, b5, b6⟩ := C76_two_step cfg (Ossl.crypto cfg L) D junk hfit
    (openssl_keyWorks hw hi hL e7 h1.works) (makes_256 h1) (makeOsslKey_silent _ _)
    (m := m 2) (by rw [hm]; decide)
  obtain ⟨s2, c1, -, c3, c4, c5, c6⟩ := C77_dynamic cfg (Ossl.crypto cfg L) D junk hfit
    (openssl_keyWorks hw hi hL e8 h2.works) hH hcap (makes_25519 h2) (makeOsslKey_silent _ _)
    (hnull 0) (hnull 1 25) (hnull 2 25)
  exact ⟨s0, s1, s2, _, _, _, rfl, a1, b1, c1, ⟨a3, a4, a5, a6⟩, ⟨b3, b4, b5, b6⟩, ⟨c3, c4, c5, c6⟩⟩

/-- **C76 with PSA.** The same of the two examples of the PSA program, if the library imports the
key and it works. -/
theorem C76_psa {cfg : Config} {L : Psa.Lib} {D : Psa.HashAlg → Bytes → Bytes}
    {A : L.Op → Psa.HashAlg → Bytes → Prop} (hf : Spec.Psa.Fits L) (hL : Spec.Psa.Hashing L D A)
    {init : Nat → Int} {imp : Nat → PsaType → KeyData → Psa.SigAlg → Int × UInt32}
    (hinit : ∀ i, init i = 0) (himp : ∀ i, (imp i .secpR1 .ec256 (.ecdsa .sha256)).1 = 0)
    (hk : ∀ i, Spec.Psa.KeyFor L (imp i .secpR1 .ec256 (.ecdsa .sha256)).2.toNat (.ecdsa .sha256) 32 64)
    {m : Nat → Bytes} (hm : ∀ i, (m i).length = 300) (junk : Junk) :
    ∃ s0 s1 r0 r1, psaMain cfg QParams.std (Psa.crypto cfg L) junk init imp m = (0, [r0, r1]) ∧
      s0.length = 64 ∧ s1.length = 64 ∧
      Well r0 [("Completed COSE_Sign1 message:", beingMessage s0), ("Signed payload:", beingItem.enc)]
        [("Encoded payload size", 97)] ∧
      Well r1 [("Completed COSE_Sign1 message:", beingMessage s1), ("Signed payload:", beingItem.enc)] [] := by
  have hfit := psa_signFits cfg L hf
  have e7 : algEnabled cfg (-7) := by simp [algEnabled]
  have hkey : ∀ i, (makePsaKey (init i) (imp i) (-7)).1 =
      .ok ⟨.psa, (imp i .secpR1 .ec256 (.ecdsa .sha256)).2.toNat⟩ := by
    intro i
    unfold makePsaKey psaMakeKey
    rw [if_pos (.inl rfl), show psaKeyArgs (-7) = some (.secpR1, .ec256, .ecdsa .sha256) from rfl]
    dsimp only
    rw [if_neg (fun h => h (hinit i)), if_neg (fun h => h (himp i))]
  have hkw : ∀ i, KeyWorks cfg (Psa.crypto cfg L) (fun ha => D (Spec.Psa.hashTable ha)) (-7)
      ⟨.psa, (imp i .secpR1 .ec256 (.ecdsa .sha256)).2.toNat⟩ 64 := fun i =>
    psa_keyWorks hL e7 (by decide) (UInt32.toNat_lt _) (hk i)
  obtain ⟨s0, a1, -, a3, a4, a5, a6⟩ := C76_one_step cfg (Psa.crypto cfg L) _ junk hfit
    (hkw 0) (hkey 0) (makePsaKey_silent _ _ _)
    (m1 := m 0) (m2 := m 1) (by rw [hm]; omega) (by rw [hm]; decide)
  obtain ⟨s1, b1, -, b3, b4, b5, b6⟩ := C76_two_step cfg (Psa.crypto cfg L) _ junk hfit
    (hkw 1) (hkey 1) (makePsaKey_silent _ _ _)
    (m := m 2) (by rw [hm]; decide)
  exact ⟨s0, s1, _, _, rfl, a1, b1, ⟨a3, a4, a5, a6⟩, ⟨b3, b4, b5, b6⟩⟩

/-! ## Non-vacuity -/

/-- Key generation that leaves the keys of `mainOssl`. -/
def demoGen : EvpGen where
  ctxNew := fun ty => if ty = .ec then 10 else 20
  init := fun _ => 1
  curve := fun _ _ => 1
  pkeyNew := 0
  keygen := fun c _ => (1, if c = 10 then 1 else 5)

def demoHeap : Heap := ⟨fun i _ => i + 1, fun _ n => List.replicate n 0xee⟩

/-- C76 and C77 hold of a library, key generation and heap that are there. -/
example (cfg : Config) (he : cfg.disableEDDSA = false) :=
  C76_openssl (cfg := cfg) (mainOssl_ready cfg).works (mainOssl_ready cfg).i2d (mainOssl_ready cfg).fits
    (mainOssl_ready cfg).hashing he (G := fun _ => demoGen)
    ⟨by decide, by decide, rfl, rfl, mainOssl_keyFor (data := .ec256) (by decide)⟩
    ⟨by decide, by decide, rfl, rfl, mainOssl_keyFor (data := .ec256) (by decide)⟩
    ⟨by decide, by decide, rfl, rfl, mainOssl_keyFor (data := .ed25519) (by decide)⟩
    (H := demoHeap) (fun _ _ => List.length_replicate ..) (fun i _ => Nat.succ_ne_zero i)
    (cap := 2 ^ 64 - 1) (by decide) (m := fun _ => List.replicate 300 0)
    (fun _ => List.length_replicate ..) noJunk

example (cfg : Config) :=
  C76_psa (cfg := cfg) (mainPsa_ready cfg).fits (mainPsa_ready cfg).hashing (init := fun _ => 0)
    (imp := fun _ => mainImport) (fun _ => rfl) (fun _ => rfl) (fun _ => mainPsa_key (by decide))
    (m := fun _ => List.replicate 300 0) (fun _ => List.length_replicate ..) noJunk

/-- The message that the first example prints with the toy adapter. -/
example : dumps (oneStep Config.full QParams.std toyCrypto noJunk
      (fun _ => (.ok Key.null, [.got .key])) (List.replicate 300 0) (List.replicate 300 0)).acts =
    [("Completed COSE_Sign1 message:", beingMessage
        (toySig (toyDigest (-16) (sigStructure (protectedHeader (-7)) [] beingItem.enc)))),
      ("Signed payload:", beingItem.enc)] := by decide +kernel

end TCose.Props
