import Verif.Spec.Clock
import Verif.Lemmas.Alike
/-
Lemmas for C156: while the wall clock is between 1885 and 2157 the comparisons of times are those of the monotonic readings.
-/
namespace Verif.Props
open Spec Packet Code Artnet Clock

/-- The numbers `κ` for the readings that satisfy `φ` and the numbers `σ` for the times of the program give the right answers to the
comparisons of controller.go. -/
structure Faithful (φ : Reading → Prop) (κ : Reading → Int) (σ : Time → Int) (known : Time → Prop) : Prop where
  zero : known Time.zero
  zero_eq : σ Time.zero = 0
  now : ∀ r, φ r → known (Time.now r)
  now_eq : ∀ r, φ r → σ (Time.now r) = κ r
  before : ∀ t r d, known t → φ r → 0 ≤ d → d ≤ second → t.before ((Time.now r).add (-d)) = decide (σ t < κ r - d)
  stale : ∀ t r, known t → φ r → (t.add staleAfter).before (Time.now r) = decide (σ t + staleAfter < κ r)

variable {φ : Reading → Prop} {κ : Reading → Int} {σ : Time → Int} {known : Time → Prop}

/-! ### Maps -/

def bufs (σ : Time → Int) (m : GoMap Address Buffer) : GoMap Address DmxBuffer := m.map fun e => (e.1, bufferOf σ e.2)

theorem bufs_get (σ : Time → Int) (m : GoMap Address Buffer) (a : Address) : (bufs σ m).get a = (m.get a).map (bufferOf σ) := by
  induction m with
  | nil => rfl
  | cons e m ih =>
    obtain ⟨k, v⟩ := e
    simp only [bufs, List.map_cons, GoMap.get] at ih ⊢
    split
    · rfl
    · exact ih

theorem bufs_del (σ : Time → Int) (m : GoMap Address Buffer) (a : Address) : bufs σ (m.del a) = (bufs σ m).del a := by
  unfold bufs GoMap.del
  rw [List.filter_map]
  rfl

theorem bufs_set (σ : Time → Int) (m : GoMap Address Buffer) (a : Address) (b : Buffer) :
    bufs σ (m.set a b) = (bufs σ m).set a (bufferOf σ b) := by
  unfold GoMap.set
  rw [← bufs_del]
  rfl

theorem bufs_length (σ : Time → Int) (m : GoMap Address Buffer) : (bufs σ m).length = m.length := List.length_map ..

theorem bufferOf_zero (F : Faithful φ κ σ known) : bufferOf σ Buffer.zero = DmxBuffer.zero := by
  unfold bufferOf DmxBuffer.zero
  rw [show Buffer.zero.lastUpdate = Time.zero from rfl, F.zero_eq]
  rfl

theorem bufs_fold (F : Faithful φ κ σ known) (as : List Address) (m : GoMap Address Buffer) :
    bufs σ (as.foldl (fun (m : GoMap Address Buffer) a => m.set a Buffer.zero) m) =
      as.foldl (fun (m : GoMap Address DmxBuffer) a => m.set a DmxBuffer.zero) (bufs σ m) := by
  induction as generalizing m with
  | nil => rfl
  | cons a as ih => rw [List.foldl_cons, List.foldl_cons, ih, bufs_set, bufferOf_zero F]

theorem ctrlOf_store (σ : Time → Int) (s : State) (r : Ref) (n : Clock.Node) :
    ctrlOf σ (s.store r n) = (ctrlOf σ s).store r (nodeOf σ n) := by
  unfold ctrlOf State.store Ctrl.store
  congr 1
  funext x
  dsimp only
  split <;> rfl

/-- All times of the state are known. -/
def Timely (known : Time → Prop) (s : State) : Prop :=
  ∀ r, known (s.heap r).lastSeen ∧ ∀ e ∈ (s.heap r).dmxBuffer, known e.2.lastUpdate

theorem Timely.store {s : State} (h : Timely known s) {r : Ref} {n : Clock.Node}
    (hn : known n.lastSeen ∧ ∀ e ∈ n.dmxBuffer, known e.2.lastUpdate) : Timely known (s.store r n) := by
  intro x
  unfold State.store
  dsimp only
  split
  · exact hn
  · exact h x

theorem mem_set {m : GoMap Address Buffer} {a : Address} {b : Buffer} (hm : ∀ e ∈ m, known e.2.lastUpdate)
    (hb : known b.lastUpdate) : ∀ e ∈ m.set a b, known e.2.lastUpdate := by
  intro e he
  rcases List.mem_cons.mp he with rfl | he
  · exact hb
  · exact hm e (List.mem_filter.mp he).1

theorem mem_get {m : GoMap Address Buffer} {a : Address} {b : Buffer} (h : m.get a = some b) : (a, b) ∈ m := by
  induction m with
  | nil => cases h
  | cons e m ih =>
    obtain ⟨k, v⟩ := e
    simp only [GoMap.get] at h
    split at h
    · rename_i hk
      subst hk
      cases h
      exact List.mem_cons_self
    · exact List.mem_cons_of_mem _ (ih h)

theorem known_zero (F : Faithful φ κ σ known) : known Buffer.zero.lastUpdate := F.zero

theorem mem_fold (F : Faithful φ κ σ known) (as : List Address) {m : GoMap Address Buffer} (hm : ∀ e ∈ m, known e.2.lastUpdate) :
    ∀ e ∈ as.foldl (fun (m : GoMap Address Buffer) a => m.set a Buffer.zero) m, known e.2.lastUpdate := by
  induction as generalizing m with
  | nil => exact hm
  | cons a as ih => exact ih (mem_set hm (known_zero F))

/-! ### The operations -/

theorem updateNode_clock (F : Faithful φ κ σ known) {s : State} (h : Timely known s) (cfg : NodeConfig) {r : Reading} (hr : φ r) :
    ctrlOf σ (s.updateNode cfg r) = (ctrlOf σ s).updateNode cfg (κ r) ∧ Timely known (s.updateNode cfg r) := by
  have hk : known (Time.now r) := F.now r hr
  unfold State.updateNode Ctrl.updateNode
  have hf : (ctrlOf σ s).nodes.find? (fun r => cfg.ip == ((ctrlOf σ s).heap r).node.ip) =
      s.nodes.find? (fun r => cfg.ip == (s.heap r).node.ip) := rfl
  rw [hf]
  cases hq : s.nodes.find? (fun r => cfg.ip == (s.heap r).node.ip) with
  | some q =>
    constructor
    · have := ctrlOf_store σ s q { s.heap q with node := cfg, lastSeen := Time.now r }
      have e : nodeOf σ { s.heap q with node := cfg, lastSeen := Time.now r } =
          { (ctrlOf σ s).heap q with node := cfg, lastSeen := κ r } := by
        unfold nodeOf; rw [F.now_eq r hr]; rfl
      rw [e] at this
      exact congrArg (fun c : Ctrl => { c with
        output := setAll (delAll s.output (s.heap q).node.outputs) cfg.outputs q
        input := setAll (delAll s.input (s.heap q).node.inputs) cfg.inputs q }) this
    · exact Timely.store h ⟨hk, (h q).2⟩
  | none =>
    constructor
    · have := ctrlOf_store σ s s.next ⟨Time.now r, cfg, ⟨cfg.ip, artNetPort.toNat⟩, 0, cfg.outputs.foldl (fun (m : GoMap Address Buffer) a => m.set a Buffer.zero) []⟩
      have e : nodeOf σ ⟨Time.now r, cfg, ⟨cfg.ip, artNetPort.toNat⟩, 0, cfg.outputs.foldl (fun (m : GoMap Address Buffer) a => m.set a Buffer.zero) []⟩ =
          ⟨κ r, cfg, ⟨cfg.ip, artNetPort.toNat⟩, 0, cfg.outputs.foldl (fun (m : GoMap Address DmxBuffer) a => m.set a DmxBuffer.zero) []⟩ := by
        unfold nodeOf
        rw [F.now_eq r hr]
        exact congrArg _ (bufs_fold F cfg.outputs [])
      rw [e] at this
      exact congrArg (fun c : Ctrl => { c with
        next := s.next + 1
        nodes := s.nodes ++ [s.next]
        output := setAll s.output cfg.outputs s.next
        input := setAll s.input cfg.inputs s.next }) this
    · exact Timely.store h ⟨hk, mem_fold F _ (fun e he => by cases he)⟩

theorem pollReply_clock (F : Faithful φ κ σ known) {s : State} (h : Timely known s) (p : ArtPollReply) {r : Reading} (hr : φ r) :
    ctrlOf σ (s.pollReply p r) = (ctrlOf σ s).pollReply p (κ r) ∧ Timely known (s.pollReply p r) := by
  unfold State.pollReply Ctrl.pollReply
  dsimp only
  split
  · exact ⟨rfl, h⟩
  · split
    · exact ⟨rfl, h⟩
    · exact updateNode_clock F h _ hr

theorem setDMXBuffer_clock (σ : Time → Int) (n : Clock.Node) (d : Arr 512) (a : Address) :
    nodeOf σ (n.setDMXBuffer d a) = ((nodeOf σ n).setDMXBuffer d a).1 := by
  unfold Node.setDMXBuffer ControlledNode.setDMXBuffer
  rw [show (nodeOf σ n).dmxBuffer.get a = _ from bufs_get σ n.dmxBuffer a]
  cases hg : n.dmxBuffer.get a with
  | none => rfl
  | some b =>
    simp only [Option.map_some]
    unfold nodeOf
    dsimp only
    congr 1
    exact bufs_set σ _ _ _

theorem sendDMX_clock {s : State} (h : Timely known s) (d : Arr 512) (a : Address) :
    ctrlOf σ (s.sendDMX d a) = (ctrlOf σ s).sendDMX d a ∧ Timely known (s.sendDMX d a) := by
  unfold State.sendDMX Ctrl.sendDMX
  rw [show (ctrlOf σ s).output.get a = s.output.get a from rfl]
  cases hg : s.output.get a with
  | none => exact ⟨rfl, h⟩
  | some r =>
    refine ⟨?_, Timely.store h ?_⟩
    · dsimp only
      rw [ctrlOf_store, setDMXBuffer_clock]
      rfl
    · unfold Node.setDMXBuffer
      split
      · exact h r
      · rename_i b hb
        exact ⟨(h r).1, mem_set (h r).2 ((h r).2 _ (mem_get hb))⟩

theorem staleAt_clock (F : Faithful φ κ σ known) {s : State} (h : Timely known s) {clock : Nat → Reading}
    (hr : ∀ k, φ (clock k)) (l : List Ref) (k : Nat) :
    staleAt s.heap clock l k = gcFind (ctrlOf σ s).heap (fun k => κ (clock k)) l k := by
  induction l generalizing k with
  | nil => rfl
  | cons r l ih =>
    unfold staleAt gcFind
    rw [F.stale _ _ (h r).1 (hr k), ih]
    simp only [decide_eq_true_eq]
    rfl

theorem gcLoop_clock (F : Faithful φ κ σ known) {clock : Nat → Reading} (hr : ∀ k, φ (clock k))
    (n k : Nat) {s : State} (h : Timely known s) (hn : s.nodes.length < n) :
    ctrlOf σ (s.gcLoop clock n k) = (ctrlOf σ s).gcFrom (fun k => κ (clock k)) k ∧ Timely known (s.gcLoop clock n k) := by
  induction n generalizing k s with
  | zero => omega
  | succ n ih =>
    rw [State.gcLoop]
    have he := staleAt_clock F h hr s.nodes k
    rcases hg : gcFind (ctrlOf σ s).heap (fun k => κ (clock k)) s.nodes k with ⟨i, k'⟩
    rw [hg] at he
    rw [he]
    cases i with
    | none =>
      dsimp only
      exact ⟨(gcFrom_stop (c := ctrlOf σ s) hg).symm, h⟩
    | some i =>
      dsimp only
      have hi : i < s.nodes.length := gcFind_lt _ _ _ _ _ (by rw [hg])
      have hq : s.nodes[i]? = some s.nodes[i] := List.getElem?_eq_getElem hi
      rw [hq]
      dsimp only
      rw [gcFrom_remove (c := ctrlOf σ s) hg hq]
      exact ih k' (s := { s with output := _, input := _, nodes := s.nodes.eraseIdx i }) h
        (by simp only [List.length_eraseIdx, hi, if_true]; omega)

theorem ensureBuffer_clock (F : Faithful φ κ σ known) {s : State} (h : Timely known s) (a : Address) (r : Ref) :
    ctrlOf σ (s.ensureBuffer a r) = (ctrlOf σ s).ensureBuffer a r ∧ Timely known (s.ensureBuffer a r) := by
  unfold State.ensureBuffer Ctrl.ensureBuffer
  rw [show ((ctrlOf σ s).heap r).dmxBuffer.get a = _ from bufs_get σ (s.heap r).dmxBuffer a]
  cases hg : (s.heap r).dmxBuffer.get a with
  | none =>
    refine ⟨?_, Timely.store h ⟨(h r).1, mem_set (h r).2 (known_zero F)⟩⟩
    simp only [Option.map_none]
    rw [ctrlOf_store]
    congr 1
    unfold nodeOf
    dsimp only
    congr 1
    rw [← bufferOf_zero F]
    exact bufs_set σ _ _ _
  | some b => exact ⟨rfl, h⟩

theorem update_clock (F : Faithful φ κ σ known) {s : State} (h : Timely known s) (a : Address) (q : Ref) {r : Reading} (hr : φ r) :
    ctrlOf σ (s.update q a (Time.now r)).1 = ((ctrlOf σ s).update q a (κ r)).1 ∧
    (s.update q a (Time.now r)).2 = ((ctrlOf σ s).update q a (κ r)).2 ∧ Timely known (s.update q a (Time.now r)).1 := by
  have hk : known (Time.now r) := F.now r hr
  unfold State.update Ctrl.update Node.dmxUpdate ControlledNode.dmxUpdate
  rw [show ((ctrlOf σ s).heap q).dmxBuffer.get a = _ from bufs_get σ (s.heap q).dmxBuffer a]
  cases hg : (s.heap q).dmxBuffer.get a with
  | none =>
    simp only [Option.map_none]
    exact ⟨ctrlOf_store σ s q _, trivial, Timely.store h (h q)⟩
  | some b =>
    simp only [Option.map_some]
    have e1 : ((ctrlOf σ s).heap q).sequence = (s.heap q).sequence := rfl
    have e2 : ((ctrlOf σ s).heap q).dmxBuffer.length = (s.heap q).dmxBuffer.length := bufs_length σ _
    have e3 : (bufferOf σ b).data = b.data := rfl
    rw [e1, e2, e3]
    generalize (ArtDMX.marshalBinary _).2 = x
    obtain ⟨x, err⟩ := x
    cases err with
    | some err => exact ⟨ctrlOf_store σ s q _, rfl, Timely.store h (h q)⟩
    | none =>
      dsimp only
      rw [show ((ctrlOf σ s).heap q).dmxBuffer.get a = _ from bufs_get σ (s.heap q).dmxBuffer a, hg]
      simp only [Option.map_some]
      refine ⟨?_, rfl, Timely.store h ⟨(h q).1, mem_set (h q).2 hk⟩⟩
      rw [ctrlOf_store]
      congr 1
      unfold nodeOf
      dsimp only
      congr 1
      have := bufs_set σ (s.heap q).dmxBuffer a { b with lastUpdate := Time.now r, stale := false }
      unfold bufferOf at this ⊢
      dsimp only at this
      rw [F.now_eq r hr] at this
      exact this

theorem update_fps (s : State) (q : Ref) (a : Address) (t : Time) : (s.update q a t).1.maxFPS = s.maxFPS := by
  unfold State.update
  split <;> rfl

theorem ensureBuffer_fps (s : State) (a : Address) (r : Ref) : (s.ensureBuffer a r).maxFPS = s.maxFPS := by
  unfold State.ensureBuffer
  split <;> rfl

theorem known_buffer (F : Faithful φ κ σ known) {s : State} (h : Timely known s) (a : Address) (q : Ref) :
    known (((s.heap q).dmxBuffer.get a).getD .zero).lastUpdate := by
  cases hg : (s.heap q).dmxBuffer.get a with
  | none => exact known_zero F
  | some b => exact (h q).2 _ (mem_get hg)

theorem buffer_clock (F : Faithful φ κ σ known) (s : State) (a : Address) (q : Ref) :
    (((ctrlOf σ s).heap q).dmxBuffer.get a).getD .zero = bufferOf σ (((s.heap q).dmxBuffer.get a).getD .zero) := by
  rw [show ((ctrlOf σ s).heap q).dmxBuffer.get a = _ from bufs_get σ (s.heap q).dmxBuffer a]
  cases (s.heap q).dmxBuffer.get a with
  | none => exact (bufferOf_zero F).symm
  | some b => rfl

theorem tickAt_clock (F : Faithful φ κ σ known) {s : State} (h : Timely known s) (hf : 0 ≤ s.maxFPS ∧ s.maxFPS ≤ second) (a : Address)
    (q : Ref) {r : Reading} (hr : φ r) :
    ctrlOf σ (s.tickAt a q (Time.now r)).1 = ((ctrlOf σ s).tickAt a q (κ r)).1 ∧
    (s.tickAt a q (Time.now r)).2 = ((ctrlOf σ s).tickAt a q (κ r)).2 ∧ Timely known (s.tickAt a q (Time.now r)).1 ∧
    (s.tickAt a q (Time.now r)).1.maxFPS = s.maxFPS := by
  obtain ⟨he, ht⟩ := ensureBuffer_clock F h a q
  unfold State.tickAt Ctrl.tickAt
  dsimp only
  rw [← he, buffer_clock F]
  have hm := ensureBuffer_fps s a q
  generalize s.ensureBuffer a q = s1 at he ht hm ⊢
  rw [← hm] at hf ⊢
  rw [F.before _ r _ (known_buffer F ht a q) hr hf.1 hf.2]
  have hforce : (0 : Int) ≤ forceUpdate ∧ forceUpdate ≤ second := by decide
  have hlast : ∀ (s2 : State) (es : List Emission), Timely known s2 → s2.maxFPS = s1.maxFPS →
      (let x := if (((s2.heap q).dmxBuffer.get a).getD .zero).lastUpdate.before ((Time.now r).add (-forceUpdate)) then
          ((s2.update q a (Time.now r)).1, es ++ (s2.update q a (Time.now r)).2.1) else (s2, es)
       let y := if ((((ctrlOf σ s2).heap q).dmxBuffer.get a).getD .zero).lastUpdate < κ r - forceUpdate then
          (((ctrlOf σ s2).update q a (κ r)).1, es ++ ((ctrlOf σ s2).update q a (κ r)).2.1) else (ctrlOf σ s2, es)
       ctrlOf σ x.1 = y.1 ∧ x.2 = y.2 ∧ Timely known x.1 ∧ x.1.maxFPS = s1.maxFPS) := by
    intro s2 es h2 hm2
    dsimp only
    rw [F.before _ r _ (known_buffer F h2 a q) hr hforce.1 hforce.2, buffer_clock F]
    obtain ⟨u1, u2, u3⟩ := update_clock F h2 a q hr
    by_cases hx : σ (((s2.heap q).dmxBuffer.get a).getD .zero).lastUpdate < κ r - forceUpdate
    · have hx' : (bufferOf σ (((s2.heap q).dmxBuffer.get a).getD .zero)).lastUpdate < κ r - forceUpdate := hx
      rw [if_pos hx', if_pos (decide_eq_true hx)]
      exact ⟨u1, by rw [u2], u3, by rw [update_fps, hm2]⟩
    · have hx' : ¬ (bufferOf σ (((s2.heap q).dmxBuffer.get a).getD .zero)).lastUpdate < κ r - forceUpdate := hx
      rw [if_neg hx', if_neg (by simpa using hx)]
      exact ⟨rfl, rfl, h2, hm2⟩
  by_cases hx : (((s1.heap q).dmxBuffer.get a).getD .zero).stale = true ∧
      σ (((s1.heap q).dmxBuffer.get a).getD .zero).lastUpdate < κ r - s1.maxFPS
  · have hx' : (bufferOf σ (((s1.heap q).dmxBuffer.get a).getD .zero)).stale = true ∧
        (bufferOf σ (((s1.heap q).dmxBuffer.get a).getD .zero)).lastUpdate < κ r - (ctrlOf σ s1).maxFPS := hx
    have hx2 : (((s1.heap q).dmxBuffer.get a).getD .zero).stale = true ∧
        decide (σ (((s1.heap q).dmxBuffer.get a).getD .zero).lastUpdate < κ r - s1.maxFPS) = true :=
      ⟨hx.1, decide_eq_true hx.2⟩
    rw [if_pos hx', if_pos hx2]
    obtain ⟨u1, u2, u3⟩ := update_clock F ht a q hr
    have u4 := update_fps s1 q a (Time.now r)
    generalize s1.update q a (Time.now r) = x at u1 u2 u3 u4 ⊢
    generalize (ctrlOf σ s1).update q a (κ r) = y at u1 u2 ⊢
    obtain ⟨s2, es, ok⟩ := x
    obtain ⟨c2, es2, ok2⟩ := y
    dsimp only at u1 u2 u3 u4 ⊢
    obtain ⟨rfl, rfl⟩ := Prod.mk.inj u2
    subst u1
    cases ok with
    | true => exact hlast s2 es u3 u4
    | false => exact ⟨rfl, rfl, u3, u4⟩
  · have hx' : ¬ ((bufferOf σ (((s1.heap q).dmxBuffer.get a).getD .zero)).stale = true ∧
        (bufferOf σ (((s1.heap q).dmxBuffer.get a).getD .zero)).lastUpdate < κ r - (ctrlOf σ s1).maxFPS) := hx
    have hx2 : ¬ ((((s1.heap q).dmxBuffer.get a).getD .zero).stale = true ∧
        decide (σ (((s1.heap q).dmxBuffer.get a).getD .zero).lastUpdate < κ r - s1.maxFPS) = true) :=
      fun hn => hx ⟨hn.1, of_decide_eq_true hn.2⟩
    rw [if_neg hx', if_neg hx2]
    simp only [if_true]
    exact hlast s1 [] ht rfl

theorem tickOver_clock (F : Faithful φ κ σ known) {r : Reading} (hr : φ r) (order : List Address) {s : State}
    (h : Timely known s) (hf : 0 ≤ s.maxFPS ∧ s.maxFPS ≤ second) :
    ctrlOf σ (s.tickOver order (Time.now r)).1 = ((ctrlOf σ s).tickOver order (κ r)).1 ∧
    (s.tickOver order (Time.now r)).2 = ((ctrlOf σ s).tickOver order (κ r)).2 ∧ Timely known (s.tickOver order (Time.now r)).1 ∧
    (s.tickOver order (Time.now r)).1.maxFPS = s.maxFPS := by
  induction order generalizing s with
  | nil => exact ⟨rfl, rfl, h, rfl⟩
  | cons a order ih =>
    unfold State.tickOver Ctrl.tickOver
    rw [show (ctrlOf σ s).output.get a = s.output.get a from rfl]
    cases hg : s.output.get a with
    | none => exact ih h hf
    | some q =>
      dsimp only
      obtain ⟨a1, a2, a3, a4⟩ := tickAt_clock F h hf a q hr
      obtain ⟨b1, b2, b3, b4⟩ := ih a3 (by rw [a4]; exact hf)
      rw [a1] at b1 b2
      exact ⟨b1, by rw [a2, b2], b3, b4.trans a4⟩

theorem updateNode_fps (s : State) (cfg : NodeConfig) (r : Reading) : (s.updateNode cfg r).maxFPS = s.maxFPS := by
  unfold State.updateNode
  split <;> rfl

theorem gcLoop_fps (clock : Nat → Reading) (n k : Nat) (s : State) : (s.gcLoop clock n k).maxFPS = s.maxFPS := by
  induction n generalizing k s with
  | zero => rfl
  | succ n ih =>
    rw [State.gcLoop]
    split
    · rfl
    · split
      · rfl
      · exact ih _ _

theorem run_clock (F : Faithful φ κ σ known) (es : List Event) {s : State} (h : Timely known s)
    (hf : 0 ≤ s.maxFPS ∧ s.maxFPS ≤ second) (hr : EveryReading φ es) :
    ctrlOf σ (s.run es).1 = ((ctrlOf σ s).run (es.map (readAs κ))).1 ∧ (s.run es).2 = ((ctrlOf σ s).run (es.map (readAs κ))).2 := by
  induction es generalizing s with
  | nil => exact ⟨rfl, rfl⟩
  | cons e es ih =>
    simp only [State.run, List.map_cons, Ctrl.run]
    have hstep : ctrlOf σ (s.step e).1 = ((ctrlOf σ s).step (readAs κ e)).1 ∧ (s.step e).2 = ((ctrlOf σ s).step (readAs κ e)).2 ∧
        Timely known (s.step e).1 ∧ (s.step e).1.maxFPS = s.maxFPS ∧ EveryReading φ es := by
      cases e with
      | reply p r =>
        obtain ⟨h1, h2⟩ := pollReply_clock F h p hr.1
        refine ⟨h1, rfl, h2, ?_, hr.2⟩
        simp only [State.step, State.pollReply]
        split
        · rfl
        · split
          · rfl
          · exact updateNode_fps ..
      | gc clock =>
        obtain ⟨h1, h2⟩ := gcLoop_clock F (clock := clock) hr.1 (s.nodes.length + 1) 0 h (by omega)
        exact ⟨h1, rfl, h2, gcLoop_fps .., hr.2⟩
      | send d a =>
        obtain ⟨h1, h2⟩ := sendDMX_clock h d a
        refine ⟨h1, rfl, h2, ?_, hr⟩
        simp only [State.step, State.sendDMX]
        split <;> rfl
      | tick o r =>
        obtain ⟨h1, h2, h3, h4⟩ := tickOver_clock F hr.1 o h hf
        exact ⟨h1, h2, h3, h4, hr.2⟩
      | restart => exact ⟨rfl, rfl, h, rfl, hr⟩
    obtain ⟨a1, a2, a3, a4, a5⟩ := hstep
    obtain ⟨b1, b2⟩ := ih a3 (by rw [a4]; exact hf) a5
    rw [a1] at b1 b2
    exact ⟨b1, by rw [a2, b2]⟩

theorem timely_init (F : Faithful φ κ σ known) (m : Int) : Timely known (State.init m) := fun _ => ⟨F.zero, fun e he => by cases he⟩

/-- The rates with which dmxUpdateLoop runs at all. -/
theorem period_range {m d : Int} (h : tickerPeriod m = .ok d) : 1 ≤ m ∧ m ≤ second := by
  unfold tickerPeriod at h
  split at h
  · cases h
  · rename_i h0
    dsimp only at h
    split at h
    · cases h
    · rename_i hd
      by_cases hm : 0 < m
      · refine ⟨hm, Int.not_lt.mp fun hlt => hd ?_⟩
        rw [Int.tdiv_eq_zero_of_lt (by decide) hlt]
        exact Int.le_refl 0
      · exact absurd (Int.tdiv_nonpos_of_nonneg_of_nonpos (by decide) (by omega)) hd

theorem readAs_same (K : Int) {es es' : List Event} (h : SameMoments es es') : es.map (readAs (since K)) = es'.map (readAs (since K)) := by
  induction es generalizing es' with
  | nil => cases es' with
    | nil => rfl
    | cons e' es' => cases h
  | cons e es ih =>
    cases es' with
    | nil => cases e <;> cases h
    | cons e' es' =>
      cases e <;> cases e' <;> simp only [SameMoments] at h
      · obtain ⟨rfl, h1, h2⟩ := h
        simp only [List.map_cons, readAs, since, h1, ih h2]
      · simp only [List.map_cons, readAs, since, h.1, ih h.2]
      · obtain ⟨rfl, rfl, h2⟩ := h
        simp only [List.map_cons, readAs, ih h2]
      · obtain ⟨rfl, h1, h2⟩ := h
        simp only [List.map_cons, readAs, since, h1, ih h2]
      · simp only [List.map_cons, readAs, ih h]

theorem every_and {φ ψ : Reading → Prop} {es : List Event} (h : EveryReading φ es) (g : EveryReading ψ es) :
    EveryReading (fun r => φ r ∧ ψ r) es := by
  induction es with
  | nil => trivial
  | cons e es ih =>
    cases e with
    | reply p r => exact ⟨⟨h.1, g.1⟩, ih h.2 g.2⟩
    | gc clock => exact ⟨fun k => ⟨h.1 k, g.1 k⟩, ih h.2 g.2⟩
    | tick o r => exact ⟨⟨h.1, g.1⟩, ih h.2 g.2⟩
    | send d a => exact ih h g
    | restart => exact ih h g

theorem runs_same {es es' : List Event} (h : SameMoments es es') (hr : EveryReading Runs es) : EveryReading Runs es' := by
  induction es generalizing es' with
  | nil => cases es' with
    | nil => trivial
    | cons e' es' => cases h
  | cons e es ih =>
    cases es' with
    | nil => cases e <;> cases h
    | cons e' es' =>
      cases e <;> cases e' <;> simp only [SameMoments] at h
      · refine ⟨?_, ih h.2.2 hr.2⟩
        have := hr.1
        unfold Runs at this ⊢
        rw [← h.2.1]; exact this
      · refine ⟨fun k => ?_, ih h.2 hr.2⟩
        have := hr.1 k
        unfold Runs at this ⊢
        rw [← h.1 k]; exact this
      · exact (ih h.2.2 hr : EveryReading Runs es')
      · refine ⟨?_, ih h.2.2 hr.2⟩
        have := hr.1
        unfold Runs at this ⊢
        rw [← h.2.1]; exact this
      · exact (ih h hr : EveryReading Runs es')

/-! ### A wall clock between 1885 and 2157 -/

/-- A time of the program: zero, or what `time.Now` answered. -/
def Known (φ : Reading → Prop) (t : Time) : Prop := t = Time.zero ∨ ∃ r, φ r ∧ t = Time.now r

theorem now_mono {r : Reading} (h : Contemporary r) : (Time.now r).mono = some r.mono := by
  have hp : Packs r.wall := by
    unfold Contemporary at h; unfold Packs minWall second; omega
  simp [Time.now, hp]

theorem stamp_now {K : Int} {r : Reading} (h : Contemporary r) : stamp K (Time.now r) = r.mono + K := by
  simp [stamp, now_mono h]

theorem contemporary_faithful {K : Int} (hK : staleAfter < K) :
    Faithful (fun r => Runs r ∧ Contemporary r) (since K) (stamp K) (Known fun r => Runs r ∧ Contemporary r) where
  zero := .inl rfl
  zero_eq := rfl
  now := fun r hr => .inr ⟨r, hr, rfl⟩
  now_eq := fun r hr => stamp_now hr.2
  before := by
    intro t r d ht hr h0 h1
    obtain ⟨hr, hc⟩ := hr
    unfold since
    have hm : ((Time.now r).add (-d)).mono = some (r.mono + -d) := by
      have hp : Packs (r.wall + -d) ∧ Fits (r.mono + -d) := by
        unfold Contemporary at hc; unfold Runs at hr; unfold Packs minWall Fits; unfold second at h1 ⊢; omega
      unfold Time.add
      rw [now_mono hc]
      exact if_pos hp
    rcases ht with rfl | ⟨q, ⟨hq, hqc⟩, rfl⟩
    · have hx : (0 : Int) < r.wall + -d := by
        unfold Contemporary at hc; unfold second at h1; omega
      have hy : (0 : Int) < r.mono + K - d := by
        unfold Runs at hr; unfold staleAfter second at hK; unfold second at h1; omega
      simp only [Time.before, Time.zero, stamp, hy, decide_true]
      simp only [Time.add, Time.now, hx, decide_true]
    · simp only [Time.before, now_mono hqc, hm, stamp_now hqc]
      exact decide_eq_decide.mpr (by omega)
  stale := by
    intro t r ht hr
    obtain ⟨hr, hc⟩ := hr
    unfold since
    rcases ht with rfl | ⟨q, ⟨hq, hqc⟩, rfl⟩
    · have hx : (0 : Int) + staleAfter < r.wall := by
        unfold Contemporary at hc; unfold staleAfter second; omega
      have hy : (0 : Int) + staleAfter < r.mono + K := by
        unfold Runs at hr; omega
      simp only [Time.before, Time.zero, stamp, Time.add, Option.bind_none, Time.now, hx, hy, decide_true]
    · have hp : Packs (q.wall + staleAfter) ∧ Fits (q.mono + staleAfter) := by
        unfold Contemporary at hqc; unfold Runs at hq; unfold Packs minWall Fits staleAfter second; omega
      have hm : ((Time.now q).add staleAfter).mono = some (q.mono + staleAfter) := by
        unfold Time.add
        rw [now_mono hqc]
        exact if_pos hp
      simp only [Time.before, now_mono hc, hm, stamp_now hqc]
      exact decide_eq_decide.mpr (by omega)

/-! ### A wall clock that is never set -/

/-- The number for a time if the wall clock is always `W` ahead of the monotonic clock. -/
def steadyStamp (W K : Int) (t : Time) : Int := if t = Time.zero then 0 else t.wall - W + K

theorem now_or {r : Reading} : (Time.now r).mono = none ∨ (Time.now r).mono = some r.mono := by
  unfold Time.now
  dsimp only
  split
  · exact .inr rfl
  · exact .inl rfl

theorem add_or (t : Time) (d : Int) : (t.add d).mono = none ∨ ∃ m, t.mono = some m ∧ (t.add d).mono = some (m + d) := by
  unfold Time.add
  cases ht : t.mono with
  | none => exact .inl rfl
  | some m =>
    simp only [Option.bind_some]
    split
    · exact .inr ⟨m, rfl, rfl⟩
    · exact .inl rfl

theorem steady_faithful {W K : Int} (hK : staleAfter < K) (hW : staleAfter < W) :
    Faithful (fun r => Runs r ∧ r.wall = r.mono + W) (since K) (steadyStamp W K) (Known fun r => Runs r ∧ r.wall = r.mono + W) := by
  have hne : ∀ q : Reading, Runs q → q.wall = q.mono + W → Time.now q ≠ Time.zero := by
    intro q hq hw h
    have := congrArg Time.wall h
    simp only [Time.now, Time.zero] at this
    unfold Runs at hq; unfold staleAfter second at hW; omega
  have hst : ∀ q : Reading, Runs q → q.wall = q.mono + W → steadyStamp W K (Time.now q) = q.mono + K := by
    intro q hq hw
    unfold steadyStamp
    rw [if_neg (hne q hq hw)]
    simp only [Time.now]
    omega
  refine ⟨.inl rfl, rfl, fun r hr => .inr ⟨r, hr, rfl⟩, fun r hr => hst r hr.1 hr.2, ?_, ?_⟩
  · intro t r d ht hr h0 h1
    obtain ⟨hr, hc⟩ := hr
    unfold since
    have hwr : ((Time.now r).add (-d)).wall = r.mono + W - d := by simp only [Time.add, Time.now]; omega
    rcases ht with rfl | ⟨q, ⟨hq, hqc⟩, rfl⟩
    · have hx : (0 : Int) < r.mono + W - d := by
        unfold Runs at hr; unfold staleAfter second at hW; unfold second at h1; omega
      have hy : (0 : Int) < r.mono + K - d := by
        unfold Runs at hr; unfold staleAfter second at hK; unfold second at h1; omega
      rw [show steadyStamp W K Time.zero = 0 from rfl]
      simp only [Time.before, Time.zero, hwr, hx, hy, decide_true]
    · rw [hst q hq hqc]
      have hwq : (Time.now q).wall = q.mono + W := hqc
      rcases now_or (r := q) with e1 | e1
      · simp only [Time.before, e1, hwr, hwq]
        exact decide_eq_decide.mpr (by omega)
      · rcases add_or (Time.now r) (-d) with e2 | ⟨m, e3, e2⟩
        · simp only [Time.before, e1, e2, hwr, hwq]
          exact decide_eq_decide.mpr (by omega)
        · rcases now_or (r := r) with e4 | e4
          · rw [e3] at e4; cases e4
          · rw [e3] at e4
            have e4 := Option.some.inj e4
            simp only [Time.before, e1, e2]
            exact decide_eq_decide.mpr (by omega)
  · intro t r ht hr
    obtain ⟨hr, hc⟩ := hr
    unfold since
    have hwr : (Time.now r).wall = r.mono + W := hc
    rcases ht with rfl | ⟨q, ⟨hq, hqc⟩, rfl⟩
    · have hx : (0 : Int) + staleAfter < r.mono + W := by unfold Runs at hr; omega
      have hy : (0 : Int) + staleAfter < r.mono + K := by unfold Runs at hr; omega
      rw [show steadyStamp W K Time.zero = 0 from rfl]
      simp only [Time.before, Time.zero, Time.add, Option.bind_none, hwr, hx, hy, decide_true]
    · rw [hst q hq hqc]
      have hwq : ((Time.now q).add staleAfter).wall = q.mono + W + staleAfter := by simp only [Time.add, Time.now]; omega
      rcases now_or (r := r) with e1 | e1
      · rcases hz : ((Time.now q).add staleAfter).mono with _ | _ <;> simp only [Time.before, e1, hz, hwr, hwq] <;>
          exact decide_eq_decide.mpr (by omega)
      · rcases add_or (Time.now q) staleAfter with e2 | ⟨m, e3, e2⟩
        · simp only [Time.before, e1, e2, hwr, hwq]
          exact decide_eq_decide.mpr (by omega)
        · rcases now_or (r := q) with e4 | e4
          · rw [e3] at e4; cases e4
          · rw [e3] at e4
            have e4 := Option.some.inj e4
            simp only [Time.before, e1, e2]
            exact decide_eq_decide.mpr (by omega)

end Verif.Props
