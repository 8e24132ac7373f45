import Verif.Lemmas.Config
import Verif.Props.Decode
/-
Properties of config.go: C30–C38.
-/
namespace Verif.Props
open Spec Packet Code Artnet

/-- A small but non-trivial configuration used in the examples below. -/
def cfg1 : NodeConfig := { NodeConfig.zero with
  oem := 0x1234
  type := 1
  name := [0x61, 0x62]
  ip := [10, 0, 0, 5]
  ethernet := [1, 2, 3, 4, 5, 6]
  baseAddress := ⟨1, 2⟩
  inputPorts := [⟨⟨0, 7⟩, 0, 0x80⟩]
  outputPorts := [⟨⟨0, 7⟩, 0, 0⟩, ⟨⟨0, 8⟩, 5, 0⟩] }

theorem cfg1_valid : ValidConfig cfg1 := by
  refine ⟨by decide, by decide, ?_⟩
  intro i a b ha hb
  match i with
  | 0 => simp [cfg1] at ha hb; subst ha; subst hb; decide
  | i + 1 => simp [cfg1] at ha

/-! ### C30, C31 -/

/-- C30: `Integer` is 256·Net + SubUni, lies in 0..65535, and is a bijection onto that range. -/
theorem C30_integer :
    (∀ a : Address, a.integer = 256 * (a.net.toNat : Int) + a.subUni.toNat ∧
      0 ≤ a.integer ∧ a.integer ≤ 65535) ∧
    (∀ a b : Address, a.integer = b.integer → a = b) ∧
    (∀ n : Int, 0 ≤ n → n ≤ 65535 → ∃ a : Address, a.integer = n) := by
  refine ⟨fun a => ?_, fun a b h => ?_, fun n h1 h2 => ?_⟩
  · have h1 := a.net.toNat_lt
    have h2 := a.subUni.toNat_lt
    rw [address_integer_eq]
    omega
  · rw [address_integer_eq, address_integer_eq] at h
    have h1 := a.subUni.toNat_lt
    have h2 := b.subUni.toNat_lt
    have e1 : a.net = b.net := UInt8.toNat_inj.mp (by omega)
    have e2 : a.subUni = b.subUni := UInt8.toNat_inj.mp (by omega)
    cases a; cases b; simp_all
  · refine ⟨⟨UInt8.ofNat (n.toNat / 256), UInt8.ofNat (n.toNat % 256)⟩, ?_⟩
    rw [address_integer_eq]
    simp only [UInt8.toNat_ofNat']
    omega

example : (⟨1, 0x23⟩ : Address).integer = 291 := by decide

/-- C31: the text is `Net:SubNet.Universe` in decimal, and no two addresses share it. -/
theorem C31_string :
    (∀ a : Address, a.str = a.net.toNat.repr ++ ":" ++ (a.subUni.toNat / 16).repr ++ "." ++
      (a.subUni.toNat % 16).repr) ∧
    (∀ a b : Address, a.str = b.str → a = b) := by
  constructor
  · intro a
    have h : (a.subUni >>> 4).toNat = a.subUni.toNat / 16 ∧
        (a.subUni &&& 0x0f).toNat = a.subUni.toNat % 16 :=
      forall_u8 (P := fun s => (s >>> 4).toNat = s.toNat / 16 ∧ (s &&& 0x0f).toNat = s.toNat % 16)
        (by decide +kernel) a.subUni
    rw [Address.str, h.1, h.2]
  · intro a b h
    have h := congrArg String.toList h
    rw [address_str_toList, address_str_toList] at h
    obtain ⟨h1, h2⟩ := split_unique (notMem_repr ':' rfl _) (notMem_repr ':' rfl _) h
    obtain ⟨h3, h4⟩ := split_unique (notMem_repr '.' rfl _) (notMem_repr '.' rfl _) h2
    have e1 := UInt8.toNat_inj.mp (repr_inj' (String.toList_inj.mp h1))
    have e2 := UInt8.toNat_inj.mp (repr_inj' (String.toList_inj.mp h3))
    have e3 := UInt8.toNat_inj.mp (repr_inj' (String.toList_inj.mp h4))
    have e4 := nibbles _ _ e2 e3
    cases a; cases b; simp_all

example : (⟨3, 0x4f⟩ : Address).str = "3:4.15" := by decide

/-! ### C32 -/

/-- C32: validation never panics, and it succeeds exactly on the valid configurations. -/
theorem C32_validate (c : NodeConfig) :
    ∃ r, c.validate = .ok r ∧ (r = none ↔ ValidConfig c) := by
  obtain ⟨r, hr, h⟩ := validate_spec c
  refine ⟨r, hr, h.trans ?_⟩
  constructor
  · rintro ⟨h1, h2, h3⟩
    refine ⟨h1, h2, fun i a b ha hb => ?_⟩
    by_cases e : PortType.type a.type = PortType.type b.type
    · exact e
    · exact absurd ⟨a, b, ha, hb, e⟩ (h3 i)
  · rintro ⟨h1, h2, h3⟩
    refine ⟨h1, h2, ?_⟩
    rintro j ⟨a, b, ha, hb, e⟩
    exact e (h3 j a b ha hb)

example : ValidConfig cfg1 := cfg1_valid

example : ¬ ValidConfig { cfg1 with inputPorts := [⟨⟨0, 7⟩, 1, 0⟩] } := by
  intro h
  exact absurd (h.2.2 0 _ _ rfl rfl) (by decide)

/-! ### C33 -/

/-- C33: the port table announced for a valid configuration. A protocol outside the documented six is
announced as DMX512. -/
theorem C33_port_table (c : NodeConfig) (hv : ValidConfig c) :
    ∃ p, artPollReplyFromConfig c = .ok p ∧
      p.numPorts.toNat = max c.inputPorts.length c.outputPorts.length ∧
      (∀ i : Fin 4, bitOf (p.portTypes.get i) 6 = decide (i.val < c.inputPorts.length) ∧
        bitOf (p.portTypes.get i) 7 = decide (i.val < c.outputPorts.length)) ∧
      (∀ (i : Fin 4) (q : InputPort), c.inputPorts[i.val]? = some q →
        PortType.type (p.portTypes.get i) =
          if PortType.type q.type = "unknown" then "DMX512" else PortType.type q.type) ∧
      (∀ (i : Fin 4) (q : OutputPort), c.outputPorts[i.val]? = some q →
        PortType.type (p.portTypes.get i) =
          if PortType.type q.type = "unknown" then "DMX512" else PortType.type q.type) ∧
      (∀ i : Fin 4, p.numPorts.toNat ≤ i.val → p.portTypes.get i = 0) := by
  refine ⟨announced c, artPollReplyFromConfig_eq c, numberOfPorts_eq c hv.1 hv.2.1, ?_, ?_, ?_, ?_⟩
  · intro i
    have hb : ∀ s : UInt8, bitOf s 6 = PortType.input s ∧ bitOf s 7 = PortType.output s :=
      forall_u8 (P := fun s => bitOf s 6 = PortType.input s ∧ bitOf s 7 = PortType.output s)
        (by decide +kernel)
    rw [(hb _).1, (hb _).2]
    exact (congrArg (fun x => PortType.input x = _ ∧ PortType.output x = _)
      (portTypesVal_get c i)).mpr (portTypeVal_flags c i)
  · intro i q hq
    rw [show (announced c).portTypes.get i = _ from portTypesVal_get c i]
    unfold portTypeVal
    rw [hq]
    cases ho : c.outputPorts[i.val]? with
    | none => exact type_withType _ _ (by decide)
    | some o =>
      rw [hv.2.2 _ _ _ hq ho]
      exact type_withType _ _ (by decide)
  · intro i q hq
    rw [show (announced c).portTypes.get i = _ from portTypesVal_get c i]
    unfold portTypeVal
    rw [hq]
    cases ho : c.inputPorts[i.val]? <;> exact type_withType _ _ (by decide)
  · intro i hi
    rw [show (announced c).numPorts.toNat = _ from numberOfPorts_eq c hv.1 hv.2.1] at hi
    rw [show (announced c).portTypes.get i = _ from portTypesVal_get c i]
    unfold portTypeVal
    rw [List.getElem?_eq_none (by omega), List.getElem?_eq_none (by omega)]

example : ValidConfig cfg1 ∧ max cfg1.inputPorts.length cfg1.outputPorts.length = 2 ∧
    PortType.type 5 = "Art-Net" := ⟨cfg1_valid, by decide, by decide⟩

/-! ### C34 -/

/-- What C34 asks of a configuration `c` and the configuration `d` that a controller reconstructs. -/
def SameIdentity (c d : NodeConfig) : Prop :=
  d.oem = c.oem ∧ d.version = c.version ∧ d.biosVersion = c.biosVersion ∧ d.type = c.type ∧
  d.bindIndex = c.bindIndex ∧ d.status1 = c.status1 ∧ d.status2 = c.status2 ∧
  d.baseAddress = c.baseAddress ∧
  (c.ip.length = 4 → d.ip = c.ip) ∧
  (∀ x, x.length = 4 → c.ip = v4InV6Prefix ++ x → d.ip = x) ∧
  (c.bindIP.length = 4 → d.bindIP = c.bindIP) ∧
  (∀ x, x.length = 4 → c.bindIP = v4InV6Prefix ++ x → d.bindIP = x) ∧
  (c.ethernet.length = 6 → d.ethernet = c.ethernet) ∧
  (FieldText 2 c.manufacturer → d.manufacturer = c.manufacturer) ∧
  (FieldText 18 c.name → d.name = c.name) ∧
  (FieldText 64 c.description → d.description = c.description) ∧
  d.inputPorts.length = c.inputPorts.length ∧ d.outputPorts.length = c.outputPorts.length

/-- C34 as stated: every valid configuration is reconstructed. -/
def C34_statement : Prop := ∀ c, ValidConfig c → ∃ d, Discovers c d ∧ SameIdentity c d

theorem ip_back (ip : Bytes) :
    (ip.length = 4 → ((Arr.zero 4).copyFrom (to4 ip)).val = ip) ∧
    (∀ x : Bytes, x.length = 4 → ip = v4InV6Prefix ++ x → ((Arr.zero 4).copyFrom (to4 ip)).val = x) := by
  constructor
  · intro h
    rw [to4, if_pos h, copyFrom_zero_exact _ h]
  · intro x hx he
    have hp : v4InV6Prefix.length = 12 := rfl
    have hl : ip.length = 16 := by rw [he, List.length_append, hx, hp]
    have e : to4 ip = x := by
      rw [to4, if_neg (by omega), if_pos ⟨hl, by rw [he, List.take_left' hp]⟩, he, List.drop_left' hp]
    rw [e, copyFrom_zero_exact _ hx]

/-- A node whose style is not declared is invisible: its announcement is rejected by every receiver. -/
theorem C34_undeclared_style (c d : NodeConfig) (hs : 7 ≤ c.type) : ¬ Discovers c d := by
  rintro ⟨p, q, h1, h2, _⟩
  rw [artPollReplyFromConfig_eq] at h1
  injection h1 with h1
  subst h1
  obtain ⟨g1, g2, _, g4, _⟩ := ArtPollReply.write_facts (announced c)
  have hl : (binaryWrite (announced c).finish).length = 239 := binaryWrite_length _
  have hh := (headerOK_iff _).mpr ⟨by rw [hl]; omega, g1⟩
  have := ((C14_pollreply_acceptance _ hh.2.1 g2).mp ⟨_, h2⟩).2.2
  rw [g4] at this
  exact absurd hs (UInt8.not_le.mpr this)

theorem C34_false : ¬ C34_statement := by
  intro h
  obtain ⟨d, hd, _⟩ := h { cfg1 with type := 7 } cfg1_valid
  exact C34_undeclared_style _ d (by decide) hd

/-- C34, the part that holds: with a declared style (StNode … StVisual) a controller reconstructs
exactly one configuration, and it has the node's identity. -/
theorem C34_partial (c : NodeConfig) (hv : ValidConfig c) (hs : c.type < 7) :
    ∃ d, Discovers c d ∧ SameIdentity c d ∧ ∀ d', Discovers c d' → d' = d := by
  refine ⟨rediscovered c, (discovers_iff c _ hs).mpr rfl, ?_, fun d' h => (discovers_iff c d' hs).mp h⟩
  obtain ⟨hi, ho⟩ := rediscovered_ports c hv.1 hv.2.1
  have ht {n : Nat} {s : Bytes} (h : FieldText n s) :
      decodeString ((Arr.zero n).copyFrom s).val = s := by
    rw [copyFrom_zero s h.1]
    exact decodeString_padded s _ h.2
  refine ⟨?_, ?_, ?_, ?_, ?_, ?_, ?_, ?_, ?_, ?_, ?_, ?_, ?_, ?_, ?_, ?_, ?_, ?_⟩
  · rw [rediscovered, configFromArtPollReply_eq]; rfl
  · rw [rediscovered, configFromArtPollReply_eq]; rfl
  · rw [rediscovered, configFromArtPollReply_eq]; rfl
  · rw [rediscovered, configFromArtPollReply_eq]; rfl
  · rw [rediscovered, configFromArtPollReply_eq]; rfl
  · rw [rediscovered, configFromArtPollReply_eq]; rfl
  · rw [rediscovered, configFromArtPollReply_eq]; rfl
  · rw [rediscovered, configFromArtPollReply_eq]; rfl
  · rw [rediscovered, configFromArtPollReply_eq]; exact (ip_back c.ip).1
  · rw [rediscovered, configFromArtPollReply_eq]; exact (ip_back c.ip).2
  · rw [rediscovered, configFromArtPollReply_eq]; exact (ip_back c.bindIP).1
  · rw [rediscovered, configFromArtPollReply_eq]; exact (ip_back c.bindIP).2
  · rw [rediscovered, configFromArtPollReply_eq]; exact fun h => copyFrom_zero_exact _ h
  · rw [rediscovered, configFromArtPollReply_eq]; exact ht
  · rw [rediscovered, configFromArtPollReply_eq]; exact ht
  · rw [rediscovered, configFromArtPollReply_eq]; exact ht
  · rw [hi, List.length_map, List.length_range]
  · rw [ho, List.length_map, List.length_range]

/-- C34, exactly: a node is discovered, with its identity, iff its style is declared. -/
theorem C34_exact (c : NodeConfig) (hv : ValidConfig c) :
    (∃ d, Discovers c d ∧ SameIdentity c d) ↔ c.type < 7 := by
  refine ⟨fun ⟨d, hd, _⟩ => ?_, fun hs => (C34_partial c hv hs).imp fun _ h => ⟨h.1, h.2.1⟩⟩
  by_cases hs : c.type < 7
  · exact hs
  · exact absurd hd (C34_undeclared_style c d (UInt8.not_lt.mp hs))

example : ValidConfig cfg1 ∧ cfg1.type < 7 ∧ cfg1.ip.length = 4 ∧ cfg1.ethernet.length = 6 ∧
    FieldText 18 cfg1.name := ⟨cfg1_valid, by decide, by decide, by decide, by decide⟩

/-! ### C35 -/

/-- C35 as stated: every configured port keeps its address and status. -/
def C35_statement : Prop := ∀ c d, ValidConfig c → Discovers c d →
  (∀ (i : Nat) (a : InputPort), c.inputPorts[i]? = some a →
    ∃ b, d.inputPorts[i]? = some b ∧ b.address = a.address ∧ b.status = a.status) ∧
  (∀ (i : Nat) (a : OutputPort), c.outputPorts[i]? = some a →
    ∃ b, d.outputPorts[i]? = some b ∧ b.address = a.address ∧ b.status = a.status)

/-- C35, what the code does: every announced port comes back at the base address with an empty status
register, whatever address and status it was configured with; index and protocol survive. -/
theorem C35_partial (c d : NodeConfig) (hv : ValidConfig c) (h : Discovers c d) :
    d.inputPorts.length = c.inputPorts.length ∧ d.outputPorts.length = c.outputPorts.length ∧
    (∀ (i : Nat) (a : InputPort), c.inputPorts[i]? = some a →
      ∃ b, d.inputPorts[i]? = some b ∧ b.address = c.baseAddress ∧ b.status = 0 ∧
        PortType.type b.type =
          if PortType.type a.type = "unknown" then "DMX512" else PortType.type a.type) ∧
    (∀ (i : Nat) (a : OutputPort), c.outputPorts[i]? = some a →
      ∃ b, d.outputPorts[i]? = some b ∧ b.address = c.baseAddress ∧ b.status = 0 ∧
        PortType.type b.type =
          if PortType.type a.type = "unknown" then "DMX512" else PortType.type a.type) := by
  have hs : c.type < 7 := by
    by_cases hs : c.type < 7
    · exact hs
    · exact absurd h (C34_undeclared_style c d (UInt8.not_lt.mp hs))
  rw [discovers_iff c d hs] at h
  subst h
  obtain ⟨hi, ho⟩ := rediscovered_ports c hv.1 hv.2.1
  rw [hi, ho]
  refine ⟨by simp, by simp, ?_, ?_⟩
  · intro i a ha
    have hlt := (List.getElem?_eq_some_iff.mp ha).1
    refine ⟨⟨c.baseAddress, portTypeVal c i, 0⟩, ?_, rfl, rfl, ?_⟩
    · rw [List.getElem?_map, List.getElem?_range hlt]; rfl
    · show PortType.type (portTypeVal c i) = _
      unfold portTypeVal
      rw [ha]
      cases hb : c.outputPorts[i]? with
      | none => exact type_withType _ _ (by decide)
      | some o =>
        rw [hv.2.2 _ _ _ ha hb]
        exact type_withType _ _ (by decide)
  · intro i a ha
    have hlt := (List.getElem?_eq_some_iff.mp ha).1
    refine ⟨⟨c.baseAddress, portTypeVal c i, 0⟩, ?_, rfl, rfl, ?_⟩
    · rw [List.getElem?_map, List.getElem?_range hlt]; rfl
    · show PortType.type (portTypeVal c i) = _
      unfold portTypeVal
      rw [ha]
      cases hb : c.inputPorts[i]? <;> exact type_withType _ _ (by decide)

/-- The second output port of `cfg1` is configured at 0:0.8 and discovered at the base address. -/
theorem C35_false : ¬ C35_statement := by
  intro h
  obtain ⟨d, hd, _⟩ := C34_partial cfg1 cfg1_valid (by decide)
  obtain ⟨b, hb, hadr, _⟩ := (h cfg1 d cfg1_valid hd).2 1 ⟨⟨0, 8⟩, 5, 0⟩ rfl
  obtain ⟨b', hb', hadr', _⟩ := (C35_partial cfg1 d cfg1_valid hd).2.2.2 1 ⟨⟨0, 8⟩, 5, 0⟩ rfl
  rw [hb] at hb'
  injection hb' with hb'
  subst hb'
  rw [hadr] at hadr'
  exact absurd hadr' (by decide)

example : ValidConfig cfg1 ∧ ∃ d, Discovers cfg1 d :=
  ⟨cfg1_valid, (C34_partial cfg1 cfg1_valid (by decide)).imp fun _ h => h.1⟩

/-! ### C36, C37 -/

/-- The discovered ports, in terms of the advertised indices. -/
theorem discovered_ports (p : ArtPollReply) :
    (configFromArtPollReply p).outputPorts = (advertised p 7).map (fun i =>
      ⟨⟨p.netSwitch, p.subSwitch ||| p.swOut.get i⟩, p.portTypes.get i, p.goodOutput.get i⟩) ∧
    (configFromArtPollReply p).inputPorts = (advertised p 6).map (fun i =>
      ⟨⟨p.netSwitch, p.subSwitch ||| p.swIn.get i⟩, p.portTypes.get i, p.goodInput.get i⟩) := by
  have hb : ∀ s : UInt8, bitOf s 6 = PortType.input s ∧ bitOf s 7 = PortType.output s :=
    forall_u8 (P := fun s => bitOf s 6 = PortType.input s ∧ bitOf s 7 = PortType.output s)
      (by decide +kernel)
  have gen {α : Type} (f : Fin 4 → α) (g : Fin 4 → Bool) (h : Fin 4 → Bool) (l : List (Fin 4)) :
      (l.filter h).flatMap (fun i => if g i = true then [f i] else []) =
        (l.filter fun i => h i && g i).map f := by
    induction l with
    | nil => rfl
    | cons x l ih =>
      simp only [List.filter_cons]
      cases h x <;> cases hg : g x <;> simp [ih, hg]
  rw [configFromArtPollReply_eq]
  constructor
  · have := gen (fun i => (⟨⟨p.netSwitch, p.subSwitch ||| p.swOut.get i⟩, p.portTypes.get i,
      p.goodOutput.get i⟩ : OutputPort)) (fun i => PortType.output (p.portTypes.get i))
      (fun j => decide (0 ≤ j.val ∧ j.val < p.numPorts.toNat)) (List.finRange 4)
    refine Eq.trans this ?_
    simp only [advertised, (hb _).2, Nat.zero_le, true_and]
  · have := gen (fun i => (⟨⟨p.netSwitch, p.subSwitch ||| p.swIn.get i⟩, p.portTypes.get i,
      p.goodInput.get i⟩ : InputPort)) (fun i => PortType.input (p.portTypes.get i))
      (fun j => decide (0 ≤ j.val ∧ j.val < p.numPorts.toNat)) (List.finRange 4)
    refine Eq.trans this ?_
    simp only [advertised, (hb _).1, Nat.zero_le, true_and]

/-- C36 as stated, for replies whose switches are nibbles. -/
def C36_statement : Prop := ∀ p : ArtPollReply, p.subSwitch < 16 →
  (∀ i, p.swOut.get i < 16) → (∀ i, p.swIn.get i < 16) →
  (configFromArtPollReply p).outputPorts.map (fun q => (q.address.net, q.address.subUni.toNat)) =
    (advertised p 7).map (fun i => (p.netSwitch, 16 * p.subSwitch.toNat + (p.swOut.get i).toNat)) ∧
  (configFromArtPollReply p).inputPorts.map (fun q => (q.address.net, q.address.subUni.toNat)) =
    (advertised p 6).map (fun i => (p.netSwitch, 16 * p.subSwitch.toNat + (p.swIn.get i).toNat))

/-- A reply with SubSwitch 1 and one output port with SwOut 2. -/
def reply36 : ArtPollReply := { ArtPollReply.new with
  subSwitch := 1, numPorts := 1, portTypes := ⟨[0x80, 0, 0, 0], rfl⟩, swOut := ⟨[2, 0, 0, 0], rfl⟩ }

/-- The universe 1.2 is discovered as 0.3: the sub-net switch is not shifted. -/
theorem C36_false : ¬ C36_statement := by
  intro h
  have h1 := (h reply36 (by decide) (by decide) (by decide)).1
  rw [(discovered_ports reply36).1] at h1
  revert h1
  decide

/-- C36, what holds: the net is the net switch, the low byte is `SubSwitch | Sw[i]`. It is the
Port-Address whenever SubSwitch is zero, and whenever SubSwitch already carries the sub-net in its
high nibble. -/
theorem C36_partial (p : ArtPollReply) :
    ((configFromArtPollReply p).outputPorts.map OutputPort.address =
      (advertised p 7).map fun i => ⟨p.netSwitch, p.subSwitch ||| p.swOut.get i⟩) ∧
    ((configFromArtPollReply p).inputPorts.map InputPort.address =
      (advertised p 6).map fun i => ⟨p.netSwitch, p.subSwitch ||| p.swIn.get i⟩) ∧
    (∀ s u : UInt8, s &&& 0x0f = 0 → u < 16 → (s ||| u).toNat = 16 * (s.toNat / 16) + u.toNat) ∧
    (∀ s u : UInt8, s < 16 → u < 16 → ((s ||| u).toNat = 16 * s.toNat + u.toNat ↔ s = 0)) := by
  obtain ⟨h1, h2⟩ := discovered_ports p
  rw [h1, h2]
  refine ⟨by simp, by simp, ?_, ?_⟩
  · intro s u hs hu
    have h : ∀ s : UInt8, s &&& 0x0f = 0 → ∀ u : Fin 16, (s ||| UInt8.ofNat u).toNat =
        16 * (s.toNat / 16) + u.val :=
      forall_u8 (P := fun s => s &&& 0x0f = 0 → ∀ u : Fin 16, (s ||| UInt8.ofNat u).toNat =
        16 * (s.toNat / 16) + u.val) (by decide +kernel)
    have := h s hs ⟨u.toNat, UInt8.lt_iff_toNat_lt.mp hu⟩
    simpa using this
  · intro s u hs hu
    have h : ∀ s u : Fin 16, (UInt8.ofNat s ||| UInt8.ofNat u).toNat = 16 * s.val + u.val ↔ s = 0 := by
      decide +kernel
    have := h ⟨s.toNat, UInt8.lt_iff_toNat_lt.mp hs⟩ ⟨u.toNat, UInt8.lt_iff_toNat_lt.mp hu⟩
    simp only [UInt8.ofNat_toNat] at this
    rw [this]
    constructor
    · intro e
      have e' : s.toNat = 0 := congrArg Fin.val e
      exact UInt8.toNat_inj.mp e'
    · rintro rfl; rfl

example : ((0x10 : UInt8) &&& 0x0f = 0 ∧ (2 : UInt8) < 16 ∧ (0x10 ||| 2 : UInt8).toNat = 0x12) ∧
    advertised reply36 7 = [0] := by decide

/-- C37: the discovered ports are exactly the advertised ones, in ascending order, at most four of each
direction, each with its own index's address, type and status. (`configFromArtPollReply` is a total
function: the code has no step that can panic.) -/
theorem C37_discovered_ports (p : ArtPollReply) :
    (configFromArtPollReply p).outputPorts = (advertised p 7).map (fun i =>
      ⟨⟨p.netSwitch, p.subSwitch ||| p.swOut.get i⟩, p.portTypes.get i, p.goodOutput.get i⟩) ∧
    (configFromArtPollReply p).inputPorts = (advertised p 6).map (fun i =>
      ⟨⟨p.netSwitch, p.subSwitch ||| p.swIn.get i⟩, p.portTypes.get i, p.goodInput.get i⟩) ∧
    (∀ k i, i ∈ advertised p k ↔ i.val < p.numPorts.toNat ∧ bitOf (p.portTypes.get i) k = true) ∧
    (∀ k, (advertised p k).Pairwise (· < ·)) ∧
    (configFromArtPollReply p).outputPorts.length ≤ 4 ∧
    (configFromArtPollReply p).inputPorts.length ≤ 4 := by
  obtain ⟨h1, h2⟩ := discovered_ports p
  have hlen (k : Nat) : (advertised p k).length ≤ 4 :=
    Nat.le_trans (List.length_filter_le _ _) (by decide)
  refine ⟨h1, h2, ?_, ?_, by rw [h1, List.length_map]; exact hlen 7,
    by rw [h2, List.length_map]; exact hlen 6⟩
  · intro k i
    simp [advertised, List.mem_filter]
  · intro k
    exact List.Pairwise.filter _ (by decide)

example : advertised { reply36 with numPorts := 65535, portTypes := ⟨[0x80, 0x40, 0xc0, 0x80], rfl⟩ } 7 =
    [0, 2, 3] := by decide

/-! ### C38 -/

/-- C38: a text field decodes to the UTF-8 encoding of the bytes before its first NUL, each byte read as
the character with that code point: an ASCII prefix comes back unchanged and the result never holds a
NUL. -/
theorem C38_decodeString (b : Bytes) :
    (∀ s t : Bytes, b = s ++ 0 :: t → (∀ x ∈ s, x ≠ 0) → decodeString b = s.flatMap latin1Utf8) ∧
    ((∀ x ∈ b, x ≠ 0) → decodeString b = b.flatMap latin1Utf8) ∧
    (∀ s : Bytes, (∀ x ∈ s, x < 0x80) → s.flatMap latin1Utf8 = s) ∧
    (∀ x ∈ decodeString b, x ≠ 0) := by
  have hr : latin1Utf8 = runeString := by
    funext x
    exact forall_u8 (P := fun x => latin1Utf8 x = runeString x) (by decide +kernel) x
  rw [hr]
  have hall : ∀ l : Bytes, (∀ x ∈ l, x ≠ 0) → l.takeWhile (· ≠ 0) = l := by
    intro l
    induction l with
    | nil => intro _; rfl
    | cons x l ih =>
      intro h
      have hx := h x (by simp)
      have ih' := ih fun y hy => h y (by simp [hy])
      simp only [List.takeWhile_cons, hx, ne_eq, not_false_eq_true, decide_true, if_true]
      rw [ih']
  refine ⟨?_, ?_, flatMap_rune_ascii, ?_⟩
  · rintro s t rfl hs
    rw [decodeString_eq]
    congr 1
    induction s with
    | nil => simp
    | cons x s ih =>
      have hx := hs x (by simp)
      have ih' := ih fun y hy => hs y (by simp [hy])
      simp only [List.cons_append, List.takeWhile_cons, hx, ne_eq, not_false_eq_true, decide_true,
        if_true]
      rw [ih']
  · intro h
    rw [decodeString_eq, hall b h]
  · intro x hx
    rw [decodeString_eq, List.mem_flatMap] at hx
    obtain ⟨y, hy, hxy⟩ := hx
    have : y ≠ 0 := by
      have := List.all_takeWhile (p := fun x : UInt8 => decide (x ≠ 0)) (l := b)
      rw [List.all_eq_true] at this
      simpa using this y hy
    exact runeString_ne_zero y this x hxy

example : decodeString [0x61, 0x62, 0, 0x63] = [0x61, 0x62] ∧ decodeString [0xe9] = [0xc3, 0xa9] := by
  decide

end Verif.Props
