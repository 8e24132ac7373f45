import Verif.Model.Config
import Verif.Lemmas.Names
import Verif.Spec.Config
/-
Helper lemmas for config.go.
-/
namespace Verif.Artnet
open Spec Packet Code

/-! #### Address -/

theorem address_integer_eq (a : Address) :
    a.integer = 256 * (a.net.toNat : Int) + a.subUni.toNat := by
  have h1 := a.net.toNat_lt
  have h2 := a.subUni.toNat_lt
  have h : (a.net.toUInt16 <<< 8 ||| a.subUni.toUInt16).toNat = 256 * a.net.toNat + a.subUni.toNat := by
    rw [UInt16.toNat_or, UInt16.toNat_shiftLeft]
    simp only [UInt8.toNat_toUInt16, UInt16.reduceToNat]
    have e : a.net.toNat <<< (8 % 16) % 2 ^ 16 = a.net.toNat <<< 8 := by
      rw [Nat.shiftLeft_eq, show 8 % 16 = 8 from rfl]; omega
    rw [e, ← Nat.shiftLeft_add_eq_or_of_lt (by omega), Nat.shiftLeft_eq]
    omega
  unfold Address.integer
  rw [h]
  omega

theorem split_unique {c : Char} {a b a' b' : List Char} (ha : c ∉ a) (ha' : c ∉ a')
    (h : a ++ c :: b = a' ++ c :: b') : a = a' ∧ b = b' := by
  induction a generalizing a' with
  | nil =>
    cases a' with
    | nil => simpa using h
    | cons x a' =>
      simp only [List.nil_append, List.cons_append, List.cons.injEq] at h
      exact absurd (by simp [h.1]) ha'
  | cons x a ih =>
    cases a' with
    | nil =>
      simp only [List.nil_append, List.cons_append, List.cons.injEq] at h
      exact absurd (by simp [h.1]) ha
    | cons y a' =>
      simp only [List.cons_append, List.cons.injEq] at h
      obtain ⟨h1, h2⟩ := ih (a' := a') (fun hm => ha (by simp [hm])) (fun hm => ha' (by simp [hm])) h.2
      exact ⟨by rw [h.1, h1], h2⟩

theorem notMem_repr (c : Char) (hc : c.isDigit = false) (n : Nat) : c ∉ n.repr.toList := by
  rw [Nat.toList_repr]
  intro h
  have := Nat.isDigit_of_mem_toDigits (by decide) (by decide) h
  rw [hc] at this
  simp at this

theorem address_str_toList (a : Address) : a.str.toList =
    a.net.toNat.repr.toList ++ ':' :: ((a.subUni >>> 4).toNat.repr.toList ++
      '.' :: (a.subUni &&& 0x0f).toNat.repr.toList) := by
  simp only [Address.str, String.toList_append, List.append_assoc]
  rfl

theorem nibbles (s t : UInt8) (h1 : s >>> 4 = t >>> 4) (h2 : s &&& 0x0f = t &&& 0x0f) : s = t := by
  have e (s : UInt8) : s = ((s >>> 4) <<< 4) ||| (s &&& 0x0f) :=
    forall_u8 (P := fun s => s = ((s >>> 4) <<< 4) ||| (s &&& 0x0f)) (by decide +kernel) s
  rw [e s, e t, h1, h2]

/-! #### validation and announced port types -/

theorem idxL_eq {α : Type} {l : List α} {i : Nat} {x : α} (h : l[i]? = some x) : idxL l i = .ok x := by
  simp [idxL, h]

/-- Input and output port `i` both exist and have different protocols. -/
def Mismatch (c : NodeConfig) (i : Nat) : Prop :=
  ∃ a b, c.inputPorts[i]? = some a ∧ c.outputPorts[i]? = some b ∧
    PortType.type a.type ≠ PortType.type b.type

theorem validateFrom_spec (c : NodeConfig) (n i : Nat) (hn : n = 4 - i) :
    ∃ r, c.validateFrom i = .ok r ∧ (r = none ↔ ∀ j, i ≤ j → j < 4 → ¬ Mismatch c j) := by
  induction n generalizing i with
  | zero =>
    refine ⟨none, ?_, ?_⟩
    · unfold NodeConfig.validateFrom
      rw [if_neg (by omega)]; rfl
    · simp only [true_iff]
      intro j h1 h2; omega
  | succ n ih =>
    obtain ⟨r, hr, hiff⟩ := ih (i + 1) (by omega)
    unfold NodeConfig.validateFrom
    rw [if_pos (by omega)]
    by_cases hlen : c.inputPorts.length ≤ i ∨ c.outputPorts.length ≤ i
    · rw [if_pos hlen]
      refine ⟨r, hr, ?_⟩
      rw [hiff]
      constructor
      · intro h j h1 h2 hm
        by_cases hj : j = i
        · subst hj
          obtain ⟨a, b, ha, hb, _⟩ := hm
          have h3 := (List.getElem?_eq_some_iff.mp ha).1
          have h4 := (List.getElem?_eq_some_iff.mp hb).1
          omega
        · exact h j (by omega) h2 hm
      · intro h j h1 h2
        exact h j (by omega) h2
    · rw [if_neg hlen]
      rw [not_or] at hlen
      have hx : c.inputPorts[i]? = some (c.inputPorts[i]'(by omega)) := List.getElem?_eq_getElem _
      have hy : c.outputPorts[i]? = some (c.outputPorts[i]'(by omega)) := List.getElem?_eq_getElem _
      simp only [idxL_eq hx, idxL_eq hy, bind, Except.bind]
      by_cases hm : PortType.type (c.inputPorts[i]'(by omega)).type ≠
          PortType.type (c.outputPorts[i]'(by omega)).type
      · rw [if_pos hm]
        refine ⟨_, rfl, ?_⟩
        simp only [reduceCtorEq, false_iff]
        intro h
        exact h i (by omega) (by omega) ⟨_, _, hx, hy, hm⟩
      · rw [if_neg hm]
        refine ⟨r, hr, ?_⟩
        rw [hiff]
        constructor
        · intro h j h1 h2 hmm
          by_cases hj : j = i
          · subst hj
            obtain ⟨a, b, ha, hb, hab⟩ := hmm
            rw [hx] at ha; rw [hy] at hb
            injection ha with ha; injection hb with hb
            subst ha; subst hb
            exact hm hab
          · exact h j (by omega) h2 hmm
        · intro h j h1 h2
          exact h j (by omega) h2

theorem validate_spec (c : NodeConfig) :
    ∃ r, c.validate = .ok r ∧ (r = none ↔ c.inputPorts.length ≤ 4 ∧ c.outputPorts.length ≤ 4 ∧
      ∀ j, ¬ Mismatch c j) := by
  unfold NodeConfig.validate
  by_cases h1 : c.inputPorts.length > 4
  · rw [if_pos h1]
    exact ⟨_, rfl, by simp; omega⟩
  · rw [if_neg h1]
    by_cases h2 : c.outputPorts.length > 4
    · rw [if_pos h2]
      exact ⟨_, rfl, by simp; omega⟩
    · rw [if_neg h2]
      obtain ⟨r, hr, hiff⟩ := validateFrom_spec c 4 0 rfl
      refine ⟨r, hr, ?_⟩
      rw [hiff]
      constructor
      · intro h
        refine ⟨by omega, by omega, fun j hm => ?_⟩
        by_cases hj : j < 4
        · exact h j (by omega) hj hm
        · obtain ⟨a, b, ha, _⟩ := hm
          have := (List.getElem?_eq_some_iff.mp ha).1
          omega
      · intro h j _ _
        exact h.2.2 j

/-- The value of `rsl[i]` without run-time checks. -/
def portTypeVal (c : NodeConfig) (i : Nat) : PortType :=
  match c.outputPorts[i]?, c.inputPorts[i]? with
  | some o, some _ => PortType.withType 0xc0 (PortType.type o.type)
  | some o, none => PortType.withType 0x80 (PortType.type o.type)
  | none, some q => PortType.withType 0x40 (PortType.type q.type)
  | none, none => 0

theorem portTypeAt_eq (c : NodeConfig) (i : Nat) : c.portTypeAt i = .ok (portTypeVal c i) := by
  unfold NodeConfig.portTypeAt portTypeVal
  by_cases h1 : c.inputPorts.length > i
  · have hx : c.inputPorts[i]? = some (c.inputPorts[i]'h1) := List.getElem?_eq_getElem _
    by_cases h2 : c.outputPorts.length > i
    · have hy : c.outputPorts[i]? = some (c.outputPorts[i]'h2) := List.getElem?_eq_getElem _
      simp only [h1, h2, if_true, idxL_eq hx, idxL_eq hy, bind, Except.bind, pure, Except.pure, hx, hy]
      rfl
    · have hy : c.outputPorts[i]? = none := List.getElem?_eq_none (by omega)
      simp only [h1, h2, if_true, if_false, idxL_eq hx, bind, Except.bind, pure, Except.pure, hx, hy]
      rfl
  · have hx : c.inputPorts[i]? = none := List.getElem?_eq_none (by omega)
    by_cases h2 : c.outputPorts.length > i
    · have hy : c.outputPorts[i]? = some (c.outputPorts[i]'h2) := List.getElem?_eq_getElem _
      simp only [h1, h2, if_true, if_false, idxL_eq hy, bind, Except.bind, pure, Except.pure, hx, hy]
      rfl
    · have hy : c.outputPorts[i]? = none := List.getElem?_eq_none (by omega)
      simp only [h1, h2, if_false, bind, Except.bind, pure, Except.pure, hx, hy]

/-- All four announced port types. -/
def portTypesVal (c : NodeConfig) : Arr 4 := ⟨List.ofFn fun i : Fin 4 => portTypeVal c i, List.length_ofFn⟩

theorem portTypes_eq (c : NodeConfig) : c.portTypes = .ok (portTypesVal c) := by
  simp only [NodeConfig.portTypes, portTypeAt_eq, bind, Except.bind, pure, Except.pure]
  rfl

theorem withType_flags (s : UInt8) (v : String) :
    PortType.input (PortType.withType s v) = PortType.input s ∧
    PortType.output (PortType.withType s v) = PortType.output s := by
  have h : ∀ s : UInt8, ∀ x ∈ [(0 : UInt8), 1, 2, 3, 4, 5],
      PortType.input (s ||| x) = PortType.input s ∧ PortType.output (s ||| x) = PortType.output s :=
    fun s => forall_u8 (P := fun s => ∀ x ∈ [(0 : UInt8), 1, 2, 3, 4, 5],
      PortType.input (s ||| x) = PortType.input s ∧ PortType.output (s ||| x) = PortType.output s)
      (by decide +kernel) s
  unfold PortType.withType
  repeat' split
  all_goals first
    | exact h s _ (by decide)
    | exact ⟨rfl, rfl⟩

theorem type_mem (t : UInt8) : PortType.type t ∈ ["DMX512", "MIDI", "Avab", "Colortran CMX", "ADB 62.5",
    "Art-Net", "unknown"] := by
  exact forall_u8 (P := fun t => PortType.type t ∈ ["DMX512", "MIDI", "Avab", "Colortran CMX",
    "ADB 62.5", "Art-Net", "unknown"]) (by decide +kernel) t

theorem type_withType (t : UInt8) : ∀ s ∈ [(0x40 : UInt8), 0x80, 0xc0],
    PortType.type (PortType.withType s (PortType.type t)) =
      if PortType.type t = "unknown" then "DMX512" else PortType.type t := by
  have : ∀ v ∈ ["DMX512", "MIDI", "Avab", "Colortran CMX", "ADB 62.5", "Art-Net", "unknown"],
    ∀ s ∈ [(0x40 : UInt8), 0x80, 0xc0],
      PortType.type (PortType.withType s v) = if v = "unknown" then "DMX512" else v := by decide
  exact this _ (type_mem t)

theorem portTypeVal_flags (c : NodeConfig) (i : Nat) :
    PortType.input (portTypeVal c i) = decide (i < c.inputPorts.length) ∧
    PortType.output (portTypeVal c i) = decide (i < c.outputPorts.length) := by
  unfold portTypeVal
  by_cases h1 : i < c.inputPorts.length
  · have hx : c.inputPorts[i]? = some (c.inputPorts[i]'h1) := List.getElem?_eq_getElem _
    by_cases h2 : i < c.outputPorts.length
    · have hy : c.outputPorts[i]? = some (c.outputPorts[i]'h2) := List.getElem?_eq_getElem _
      rw [hx, hy]
      simp only [withType_flags, h1, h2]
      decide
    · have hy : c.outputPorts[i]? = none := List.getElem?_eq_none (by omega)
      rw [hx, hy]
      simp only [withType_flags, h1, h2]
      decide
  · have hx : c.inputPorts[i]? = none := List.getElem?_eq_none (by omega)
    by_cases h2 : i < c.outputPorts.length
    · have hy : c.outputPorts[i]? = some (c.outputPorts[i]'h2) := List.getElem?_eq_getElem _
      rw [hx, hy]
      simp only [withType_flags, h1, h2]
      decide
    · have hy : c.outputPorts[i]? = none := List.getElem?_eq_none (by omega)
      rw [hx, hy]
      simp only [h1, h2]
      decide

/-! #### decodeString -/

theorem decodeStringFrom_eq (b acc : Bytes) :
    decodeStringFrom b acc = acc ++ (b.takeWhile (· ≠ 0)).flatMap runeString := by
  induction b generalizing acc with
  | nil => simp [decodeStringFrom]
  | cons c b ih =>
    by_cases h : c = 0
    · simp [decodeStringFrom, h]
    · simp [decodeStringFrom, h, ih]

theorem decodeString_eq (b : Bytes) : decodeString b = (b.takeWhile (· ≠ 0)).flatMap runeString := by
  rw [decodeString, decodeStringFrom_eq, List.nil_append]

theorem flatMap_rune_ascii (l : Bytes) (h : ∀ x ∈ l, x < 0x80) : l.flatMap runeString = l := by
  induction l with
  | nil => rfl
  | cons x l ih =>
    rw [List.flatMap_cons, ih fun y hy => h y (by simp [hy])]
    simp [runeString, h x (by simp)]

theorem runeString_ne_zero (x : UInt8) (hx : x ≠ 0) : ∀ y ∈ runeString x, y ≠ 0 :=
  forall_u8 (P := fun x => x ≠ 0 → ∀ y ∈ runeString x, y ≠ 0) (by decide +kernel) x hx

/-- A zero-padded ASCII field decodes to its text. -/
theorem decodeString_padded (s : Bytes) (n : Nat) (hs : ∀ x ∈ s, x ≠ 0 ∧ x < 0x80) :
    decodeString (s ++ List.replicate n 0) = s := by
  have : (s ++ List.replicate n 0).takeWhile (· ≠ 0) = s := by
    induction s with
    | nil => cases n <;> simp [List.replicate_succ]
    | cons x s ih =>
      have hx := (hs x (by simp)).1
      have ih' := ih fun y hy => hs y (by simp [hy])
      simp only [List.cons_append, List.takeWhile_cons, hx, ne_eq, not_false_eq_true, decide_true,
        if_true]
      rw [ih']
  rw [decodeString_eq, this, flatMap_rune_ascii s fun x hx => (hs x hx).2]

theorem copyFrom_zero {n : Nat} (s : Bytes) (h : s.length ≤ n) :
    ((Arr.zero n).copyFrom s).val = s ++ List.replicate (n - s.length) 0 := by
  simp only [Arr.copyFrom, copyInto, Arr.zero, List.length_replicate, List.drop_replicate]
  rw [List.take_of_length_le h]

theorem copyFrom_zero_exact {n : Nat} (s : Bytes) (h : s.length = n) :
    ((Arr.zero n).copyFrom s).val = s := by
  rw [copyFrom_zero s (by omega), h]
  simp

/-! #### discovery -/

/-- The port at index `i`, if advertised as an output. -/
def outAt (p : ArtPollReply) (i : Fin 4) : List OutputPort :=
  if PortType.output (p.portTypes.get i) then
    [⟨⟨p.netSwitch, p.subSwitch ||| p.swOut.get i⟩, p.portTypes.get i, p.goodOutput.get i⟩] else []

/-- The port at index `i`, if advertised as an input. -/
def inAt (p : ArtPollReply) (i : Fin 4) : List InputPort :=
  if PortType.input (p.portTypes.get i) then
    [⟨⟨p.netSwitch, p.subSwitch ||| p.swIn.get i⟩, p.portTypes.get i, p.goodInput.get i⟩] else []

/-- The indices the discovery loop visits from `i` on. -/
def visited (p : ArtPollReply) (i : Nat) : List (Fin 4) :=
  (List.finRange 4).filter fun j => decide (i ≤ j.val ∧ j.val < p.numPorts.toNat)

theorem discoverPort_eq (p : ArtPollReply) (c : NodeConfig) (i : Fin 4)
    (hb : c.baseAddress = ⟨p.netSwitch, p.subSwitch⟩) :
    discoverPort p c i = { c with outputPorts := c.outputPorts ++ outAt p i,
                                  inputPorts := c.inputPorts ++ inAt p i } := by
  unfold discoverPort outAt inAt
  by_cases h1 : PortType.output (p.portTypes.get i) = true <;>
    by_cases h2 : PortType.input (p.portTypes.get i) = true <;>
    simp [h1, h2, hb] <;> rw [← hb]

theorem visited_step (p : ArtPollReply) (i : Nat) (h : i < p.numPorts.toNat ∧ i < 4) :
    visited p i = ⟨i, h.2⟩ :: visited p (i + 1) := by
  obtain ⟨h1, h2⟩ := h
  unfold visited
  have e : List.finRange 4 = [0, 1, 2, 3] := by decide
  rw [e]
  have hi : i = 0 ∨ i = 1 ∨ i = 2 ∨ i = 3 := by omega
  generalize p.numPorts.toNat = n at *
  rcases hi with hi | hi | hi | hi <;> subst hi <;>
    simp [List.filter_cons] <;> (repeat' split) <;> simp_all <;> omega

theorem visited_stop (p : ArtPollReply) (i : Nat) (h : ¬ (i < p.numPorts.toNat ∧ i < 4)) :
    visited p i = [] := by
  unfold visited
  rw [List.filter_eq_nil_iff]
  intro j _
  have := j.isLt
  simp only [decide_eq_true_eq]
  omega

theorem discoverFrom_eq (p : ArtPollReply) (c : NodeConfig) (n i : Nat) (hn : n = 4 - i)
    (hb : c.baseAddress = ⟨p.netSwitch, p.subSwitch⟩) :
    discoverFrom p c i = { c with
      outputPorts := c.outputPorts ++ (visited p i).flatMap (outAt p)
      inputPorts := c.inputPorts ++ (visited p i).flatMap (inAt p) } := by
  induction n generalizing i c with
  | zero =>
    unfold discoverFrom
    rw [dif_neg (by omega), visited_stop p i (by omega)]
    simp
  | succ n ih =>
    unfold discoverFrom
    by_cases h : i < p.numPorts.toNat ∧ i < 4
    · rw [dif_pos h, ih _ (i + 1) (by omega) (by rw [discoverPort_eq p c _ hb]; exact hb),
        discoverPort_eq p c _ hb, visited_step p i h]
      simp
    · rw [dif_neg h, visited_stop p i h]
      simp

theorem configFromArtPollReply_eq (p : ArtPollReply) :
    configFromArtPollReply p = {
      oem := p.oem
      version := p.versionInfo
      biosVersion := p.ubeaVersion
      manufacturer := decodeString p.estaManufacturer.val
      type := p.style
      name := decodeString p.shortName.val
      description := decodeString p.longName.val
      report := p.nodeReport.val
      ethernet := p.macaddress.val
      ip := p.ipAddress.val
      bindIP := p.bindIP.val
      bindIndex := p.bindIndex
      port := p.port
      status1 := p.status1
      status2 := p.status2
      baseAddress := ⟨p.netSwitch, p.subSwitch⟩
      inputPorts := (visited p 0).flatMap (inAt p)
      outputPorts := (visited p 0).flatMap (outAt p) } := by
  unfold configFromArtPollReply
  rw [discoverFrom_eq p _ 4 0 rfl rfl]
  simp only [List.nil_append]

end Verif.Artnet

namespace Verif.Artnet
open Spec Packet Code

/-- The packet announced for a configuration. -/
def announced (c : NodeConfig) : ArtPollReply :=
  { ArtPollReply.new with
    opCode := OpCode.opPollReply
    port := artNetPort
    oem := c.oem
    versionInfo := c.version
    ubeaVersion := c.biosVersion
    style := c.type
    bindIndex := c.bindIndex
    status1 := c.status1
    status2 := c.status2
    netSwitch := c.baseAddress.net
    subSwitch := c.baseAddress.subUni
    numPorts := c.numberOfPorts
    portTypes := portTypesVal c
    ipAddress := (Arr.zero 4).copyFrom (to4 c.ip)
    estaManufacturer := (Arr.zero 2).copyFrom c.manufacturer
    shortName := (Arr.zero 18).copyFrom c.name
    longName := (Arr.zero 64).copyFrom c.description
    nodeReport := (Arr.zero 64).copyFrom c.report
    bindIP := (Arr.zero 4).copyFrom (to4 c.bindIP)
    macaddress := (Arr.zero 6).copyFrom c.ethernet }

theorem artPollReplyFromConfig_eq (c : NodeConfig) : artPollReplyFromConfig c = .ok (announced c) := by
  simp only [artPollReplyFromConfig, portTypes_eq, bind, Except.bind, pure, Except.pure]
  rfl

theorem numberOfPorts_eq (c : NodeConfig) (h1 : c.inputPorts.length ≤ 4) (h2 : c.outputPorts.length ≤ 4) :
    c.numberOfPorts.toNat = max c.inputPorts.length c.outputPorts.length := by
  unfold NodeConfig.numberOfPorts
  split <;> rw [UInt16.toNat_ofNat'] <;> omega

theorem portTypesVal_get (c : NodeConfig) (i : Fin 4) : (portTypesVal c).get i = portTypeVal c i :=
  arr_ofFn_get _ i

/-- What a controller reconstructs from the announcement of `c`. -/
def rediscovered (c : NodeConfig) : NodeConfig :=
  configFromArtPollReply { announced c with id := artNet, opCode := OpCode.opPollReply, port := 6454 }

theorem visit_range {α : Type} (f : Nat → α) (m n : Nat) (hm : m ≤ 4) (hn : n ≤ 4) :
    ((List.finRange 4).filter (fun j => decide (0 ≤ j.val ∧ j.val < max m n))).flatMap
      (fun i : Fin 4 => if i.val < n then [f i.val] else []) = (List.range n).map f := by
  have hm' : m = 0 ∨ m = 1 ∨ m = 2 ∨ m = 3 ∨ m = 4 := by omega
  have hn' : n = 0 ∨ n = 1 ∨ n = 2 ∨ n = 3 ∨ n = 4 := by omega
  rcases hm' with hm | hm | hm | hm | hm <;> rcases hn' with hn' | hn' | hn' | hn' | hn' <;>
    subst hm <;> subst hn' <;> rfl

theorem rediscovered_ports (c : NodeConfig) (h1 : c.inputPorts.length ≤ 4)
    (h2 : c.outputPorts.length ≤ 4) :
    (rediscovered c).inputPorts =
      (List.range c.inputPorts.length).map (fun i => ⟨c.baseAddress, portTypeVal c i, 0⟩) ∧
    (rediscovered c).outputPorts =
      (List.range c.outputPorts.length).map (fun i => ⟨c.baseAddress, portTypeVal c i, 0⟩) := by
  unfold rediscovered
  rw [configFromArtPollReply_eq]
  have hn := numberOfPorts_eq c h1 h2
  have hf := portTypeVal_flags c
  generalize hP : ({ announced c with id := artNet, opCode := OpCode.opPollReply, port := 6454 } :
    ArtPollReply) = P
  have hpt (i : Fin 4) : P.portTypes.get i = portTypeVal c i := by
    subst hP; exact portTypesVal_get c i
  have hso (i : Fin 4) : P.swOut.get i = 0 := by subst hP; exact zero_get i
  have hsi (i : Fin 4) : P.swIn.get i = 0 := by subst hP; exact zero_get i
  have hgo (i : Fin 4) : P.goodOutput.get i = 0 := by subst hP; exact zero_get i
  have hgi (i : Fin 4) : P.goodInput.get i = 0 := by subst hP; exact zero_get i
  have hns : P.netSwitch = c.baseAddress.net := by subst hP; rfl
  have hss : P.subSwitch = c.baseAddress.subUni := by subst hP; rfl
  have hnp : P.numPorts.toNat = max c.inputPorts.length c.outputPorts.length := by subst hP; exact hn
  have ho : outAt P = fun i : Fin 4 => if i.val < c.outputPorts.length then
      [(⟨c.baseAddress, portTypeVal c i.val, 0⟩ : OutputPort)] else [] := by
    funext i
    simp only [outAt, hpt, hso, hgo, hns, hss, UInt8.or_zero, (hf _).2, decide_eq_true_eq]
  have hi : inAt P = fun i : Fin 4 => if i.val < c.inputPorts.length then
      [(⟨c.baseAddress, portTypeVal c i.val, 0⟩ : InputPort)] else [] := by
    funext i
    simp only [inAt, hpt, hsi, hgi, hns, hss, UInt8.or_zero, (hf _).1, decide_eq_true_eq]
  simp only [visited, hnp, ho, hi]
  refine ⟨?_, visit_range (fun i => (⟨c.baseAddress, portTypeVal c i, 0⟩ : OutputPort)) _ _ h1 h2⟩
  rw [Nat.max_comm]
  exact visit_range (fun i => (⟨c.baseAddress, portTypeVal c i, 0⟩ : InputPort)) _ _ h2 h1

theorem discovers_iff (c d : NodeConfig) (hs : c.type < 7) : Discovers c d ↔ d = rediscovered c := by
  have hrt := ArtPollReply.roundtrip (announced c) (Or.inl rfl) hs
  have hm : (announced c).marshalBinary = ((announced c).finish, binaryWrite (announced c).finish, none) :=
    rfl
  constructor
  · rintro ⟨p, q, h1, h2, h3⟩
    rw [artPollReplyFromConfig_eq] at h1
    injection h1 with h1
    subst h1
    rw [hm] at h2
    simp only at h2
    rw [hrt] at h2
    injection h2 with h2
    injection h2 with h2 _
    injection h2 with h2
    injection h2 with h2
    rw [h3, ← h2]
    rfl
  · intro h
    refine ⟨_, _, artPollReplyFromConfig_eq c, ?_, h⟩
    rw [hm]
    exact hrt

end Verif.Artnet
