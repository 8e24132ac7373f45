import Verif.Lemmas.Alike
import Verif.Spec.Independent
/-
What a tick sends, as a function of the order.
-/
namespace Verif.Artnet
open Spec Packet Code

/-- What a tick sends for universe `a`, if anything. -/
def contentAt (c : Ctrl) (a : Address) : Ref × UDPAddr × Address × Bytes :=
  let r := (c.output.get a).getD 0
  (r, (c.heap r).udpAddress, a, (bufferAt (c.heap r) a).data.val)

theorem tick_contents {c c' : Ctrl} {order : List Address} {now : Int} {es : List Emission} (t : TickSpec c order now c' es) :
    es.map content = (order.filter (dueIn c now)).map (contentAt c) := by
  rw [← t.addresses, List.map_map]
  refine List.map_congr_left fun e he => ?_
  obtain ⟨_, h1, h2, h3⟩ := t.each e he
  simp only [Function.comp, content, contentAt, h1, Option.getD_some, h2, h3]

theorem filter_emAddress (a : Address) (es : List Emission) :
    streamOf a es = (es.map content).filter fun x => x.2.2.1 == a := by
  unfold streamOf
  rw [List.filter_map]
  rfl

theorem tick_stream {c c' : Ctrl} {order : List Address} {now : Int} {es : List Emission} (t : TickSpec c order now c' es)
    (a : Address) :
    streamOf a es = List.replicate (if dueIn c now a then order.count a else 0) (contentAt c a) := by
  rw [filter_emAddress, tick_contents t, List.filter_map]
  have : (fun x : Ref × UDPAddr × Address × Bytes => x.2.2.1 == a) ∘ contentAt c = fun b => b == a := rfl
  rw [this, List.filter_beq, List.map_replicate]
  congr 1
  cases hd : dueIn c now a with
  | true => rw [if_pos rfl, List.count_filter hd]
  | false =>
    rw [if_neg (by simp), List.count_eq_zero]
    intro hm
    have := (List.mem_filter.mp hm).2
    rw [hd] at this
    cases this

theorem Alike.dueIn {A : Address → Prop} {c d : Ctrl} (h : Alike A c d) (now : Int) {a : Address} (ha : A a) :
    dueIn d now a = dueIn c now a := by
  unfold Artnet.dueIn
  rw [h.output, h.maxFPS]
  cases c.output.get a with
  | none => rfl
  | some r => simp only [h.bufferAt r ha]

theorem Alike.contentAt {A : Address → Prop} {c d : Ctrl} (h : Alike A c d) {a : Address} (ha : A a) :
    contentAt d a = contentAt c a := by
  unfold Artnet.contentAt
  simp only [h.output, h.udp, h.bufferAt _ ha]

theorem streamOf_append (a : Address) (es es' : List Emission) : streamOf a (es ++ es') = streamOf a es ++ streamOf a es' := by
  simp [streamOf]

theorem Alike.step {A : Address → Prop} {c d : Ctrl} (h : Alike A c d) (hc : Inv c) (hd : Inv d) {o : Op} (ho : c.CanDo o) :
    Alike A (c.step o).1 (d.step o).1 := by
  cases o with
  | reply p now => exact h.pollReply p now
  | gc clock => exact h.gcNode clock
  | send x b => exact h.sendDMX x b
  | tick order now =>
    have ho' : order.Perm d.output.keys := h.canDo (o := .tick order now) ho
    exact h.tick (tick_spec hc ho) (tick_spec hd ho') (List.Perm.refl _)
  | restart => exact h.restart

theorem same_run {a : Address} {os os' : List Op} (hs : SameFor a os os') : ∀ {c d : Ctrl}, Alike (· = a) c d → Inv c → Inv d →
    c.CanRun os → d.CanRun os' →
    Alike (· = a) (c.run os).1 (d.run os').1 ∧ streamOf a (d.run os').2 = streamOf a (c.run os).2 := by
  induction hs with
  | nil => exact fun h _ _ _ _ => ⟨h, rfl⟩
  | left x hb _ ih =>
    intro c d h hc hd h1 h2
    exact ih ((Alike.otherSend (A := (· = a)) c x hb).symm.trans h) (hc.step _ h1.1) hd h1.2 h2
  | right x hb _ ih =>
    intro c d h hc hd h1 h2
    exact ih (h.trans (Alike.otherSend (A := (· = a)) d x hb)) hc (hd.step _ h2.1) h1 h2.2
  | tick order order' now _ ih =>
    intro c d h hc hd h1 h2
    have t1 := tick_spec hc (now := now) h1.1
    have t2 := tick_spec hd (now := now) h2.1
    have h1' : order.Perm c.output.keys := h1.1
    have h2' : order'.Perm d.output.keys := h2.1
    have hp : order'.Perm order := h2'.trans (h.output ▸ h1'.symm)
    obtain ⟨i1, i2⟩ := ih (h.tick t1 t2 hp) (hc.step _ h1.1) (hd.step _ h2.1) h1.2 h2.2
    refine ⟨i1, ?_⟩
    rw [(run_cons _ _ _).2, (run_cons _ _ _).2, streamOf_append, streamOf_append, i2, tick_stream t1, tick_stream t2,
      h.dueIn now rfl, h.contentAt rfl, hp.count_eq]
  | cons o _ ih =>
    intro c d h hc hd h1 h2
    obtain ⟨i1, i2⟩ := ih (h.step hc hd h1.1) (hc.step _ h1.1) (hd.step _ h2.1) h1.2 h2.2
    refine ⟨i1, ?_⟩
    rw [(run_cons _ _ _).2, (run_cons _ _ _).2, streamOf_append, streamOf_append, i2]
    congr 1
    cases o with
    | tick order now =>
      rw [tick_stream (tick_spec hc h1.1), tick_stream (tick_spec hd h2.1), h.dueIn now rfl, h.contentAt rfl]
    | _ => rfl

theorem without_same (a : Address) (os : List Op) : SameFor a os (without a os) := by
  induction os with
  | nil => exact .nil
  | cons o os ih =>
    cases o with
    | send d b =>
      simp only [without]
      split
      · exact .cons _ ih
      · rename_i hb
        exact .left d hb ih
    | _ => exact .cons _ ih

theorem without_canRun (a : Address) (os : List Op) : ∀ {c d : Ctrl}, Alike (· = a) c d → Inv c → Inv d → c.CanRun os →
    d.CanRun (without a os) := by
  induction os with
  | nil => exact fun _ _ _ _ => trivial
  | cons o os ih =>
    intro c d h hc hd h1
    have keep : d.CanRun (o :: without a os) :=
      ⟨h.canDo h1.1, ih (h.step hc hd h1.1) (hc.step _ h1.1) (hd.step _ (h.canDo h1.1)) h1.2⟩
    cases o with
    | send x b =>
      simp only [without]
      split
      · exact keep
      · rename_i hb
        exact ih ((Alike.otherSend (A := (· = a)) c x hb).symm.trans h) (hc.step _ h1.1) hd h1.2
    | _ => exact keep

/-! #### the order of ticks -/

theorem orderless_same (a : Address) (os : List Op) : ∀ os' : List Op, os'.map orderless = os.map orderless → SameFor a os os' := by
  induction os with
  | nil =>
    intro os' he
    rw [List.map_nil, List.map_eq_nil_iff] at he
    subst he
    exact .nil
  | cons o os ih =>
    intro os' he
    cases os' with
    | nil => cases he
    | cons o' os' =>
      rw [List.map_cons, List.map_cons, List.cons.injEq] at he
      obtain ⟨ho, he⟩ := he
      have := ih os' he
      cases o with
      | tick order now =>
        cases o' with
        | tick order' now' =>
          cases ho
          exact .tick _ _ _ this
        | _ => cases ho
      | _ =>
        cases o' <;> cases ho
        exact .cons _ this

theorem seqFrom_len (s : UInt8) (n : Nat) : (seqFrom s n).length = n := by
  induction n generalizing s with
  | zero => rfl
  | succ n ih => simp [seqFrom, ih]

theorem ref_count {es es' : List Emission} (h : (es'.map content).Perm (es.map content)) (r : Ref) :
    (es'.filter (·.ref = r)).length = (es.filter (·.ref = r)).length := by
  have e : ∀ l : List Emission, (l.filter (·.ref = r)).length = ((l.map content).filter (·.1 = r)).length := by
    intro l
    rw [List.filter_map, List.length_map]
    rfl
  rw [e, e]
  exact (h.filter _).length_eq

theorem tick_orders {c d c' d' : Ctrl} {o1 o2 : List Address} {now : Int} {e1 e2 : List Emission}
    (h : Alike (fun _ => True) c d) (hs : ∀ r, (d.heap r).sequence = (c.heap r).sequence)
    (t1 : TickSpec c o1 now c' e1) (t2 : TickSpec d o2 now d' e2) (hp : o2.Perm o1) :
    (e2.map content).Perm (e1.map content) ∧ ∀ r, (d'.heap r).sequence = (c'.heap r).sequence := by
  have hc : (e2.map content).Perm (e1.map content) := by
    rw [tick_contents t1, tick_contents t2]
    have hd : dueIn d now = dueIn c now := funext fun a => h.dueIn now trivial
    have hx : contentAt d = contentAt c := funext fun a => h.contentAt trivial
    rw [hd, hx]
    exact (hp.filter _).map _
  refine ⟨hc, fun r => ?_⟩
  obtain ⟨n1, s1, q1⟩ := t1.sequence r
  obtain ⟨n2, s2, q2⟩ := t2.sequence r
  have l1 := congrArg List.length q1
  have l2 := congrArg List.length q2
  rw [List.length_map, seqFrom_len] at l1 l2
  have : n2 = n1 := by rw [← l1, ← l2, ref_count hc]
  rw [s1, s2, this, hs]

theorem Alike.pollReply_seq {A : Address → Prop} {c d : Ctrl} (h : Alike A c d)
    (hs : ∀ r, (d.heap r).sequence = (c.heap r).sequence) (p : ArtPollReply) (now : Int) (r : Ref) :
    ((d.pollReply p now).heap r).sequence = ((c.pollReply p now).heap r).sequence := by
  rw [pollReply_eq, pollReply_eq]
  split
  · rw [updateNode_eq, updateNode_eq, h.known]
    cases Artnet.known c (configFromArtPollReply p).ip with
    | none =>
      simp only [Artnet.addedNode, h.next]
      split
      · rfl
      · exact hs r
    | some x =>
      simp only [Artnet.updatedAt]
      split
      · exact hs x
      · exact hs r
  · exact hs r

theorem orders_run (os : List Op) : ∀ (os' : List Op), os'.map orderless = os.map orderless → ∀ {c d : Ctrl},
    Alike (fun _ => True) c d → (∀ r, (d.heap r).sequence = (c.heap r).sequence) → Inv c → Inv d → c.CanRun os → d.CanRun os' →
    Alike (fun _ => True) (c.run os).1 (d.run os').1 ∧
    (∀ r, ((d.run os').1.heap r).sequence = ((c.run os).1.heap r).sequence) ∧
    ((d.run os').2.map content).Perm ((c.run os).2.map content) := by
  induction os with
  | nil =>
    intro os' he c d h hs _ _ _ _
    rw [List.map_nil, List.map_eq_nil_iff] at he
    subst he
    exact ⟨h, hs, List.Perm.refl _⟩
  | cons o os ih =>
    intro os' he c d h hs hc hd h1 h2
    cases os' with
    | nil => cases he
    | cons o' os' =>
      rw [List.map_cons, List.map_cons, List.cons.injEq] at he
      obtain ⟨ho, he⟩ := he
      have key : Alike (fun _ => True) (c.step o).1 (d.step o').1 ∧
          (∀ r, ((d.step o').1.heap r).sequence = ((c.step o).1.heap r).sequence) ∧
          ((d.step o').2.map content).Perm ((c.step o).2.map content) := by
        cases o with
        | tick order now =>
          cases o' with
          | tick order' now' =>
            cases ho
            have h1' : order.Perm c.output.keys := h1.1
            have h2' : order'.Perm d.output.keys := h2.1
            have hp : order'.Perm order := h2'.trans (h.output ▸ h1'.symm)
            have t1 := tick_spec hc (now := now) h1'
            have t2 := tick_spec hd (now := now) h2'
            obtain ⟨q1, q2⟩ := tick_orders h hs t1 t2 hp
            exact ⟨h.tick t1 t2 hp, q2, q1⟩
          | _ => cases ho
        | reply p now =>
          cases o' with
          | reply p' now' =>
            cases ho
            exact ⟨h.pollReply p now, h.pollReply_seq hs p now, List.Perm.refl _⟩
          | _ => cases ho
        | gc clock =>
          cases o' with
          | gc clock' =>
            cases ho
            refine ⟨h.gcNode clock, fun r => ?_, List.Perm.refl _⟩
            show ((d.gcNode clock).heap r).sequence = ((c.gcNode clock).heap r).sequence
            rw [(gcNode_spec d clock hd.nodup).1.1, (gcNode_spec c clock hc.nodup).1.1]
            exact hs r
          | _ => cases ho
        | send x b =>
          cases o' with
          | send x' b' =>
            cases ho
            refine ⟨h.sendDMX x b, fun r => ?_, List.Perm.refl _⟩
            obtain ⟨-, -, -, -, -, f6, -⟩ := sendDMX_frame c x b
            obtain ⟨-, -, -, -, -, g6, -⟩ := sendDMX_frame d x b
            exact ((g6 r).2.2.2.trans (hs r)).trans (f6 r).2.2.2.symm
          | _ => cases ho
        | restart =>
          cases o' with
          | restart => exact ⟨h.restart, hs, List.Perm.refl _⟩
          | _ => cases ho
      obtain ⟨k1, k2, k3⟩ := key
      obtain ⟨i1, i2, i3⟩ := ih os' he k1 k2 (hc.step _ h1.1) (hd.step _ h2.1) h1.2 h2.2
      refine ⟨i1, i2, ?_⟩
      rw [(run_cons _ _ _).2, (run_cons _ _ _).2, List.map_append, List.map_append]
      exact k3.append i3

end Verif.Artnet
