import Verif.Spec.Overlay
import Verif.Lemmas.Example
/-
What the parses of example/poll find in the buffer.
-/
namespace Verif.Example
open Artnet Packet Code Spec

theorem arrived_append (as bs : List ExAct) : arrived (as ++ bs) = arrived as ++ arrived bs := by
  induction as with
  | nil => rfl
  | cons a as ih => cases a <;> simp [arrived, ih]

theorem topByte_snoc (ds : List Bytes) (d : Bytes) (i : Nat) :
    topByte (ds ++ [d]) i = (d[i]?).getD (topByte ds i) := by
  unfold topByte
  rw [List.reverse_append]
  simp only [List.reverse_cons, List.reverse_nil, List.nil_append, List.singleton_append, List.findSome?_cons]
  cases d[i]? <;> rfl

theorem overlay_length (ds : List Bytes) (n : Nat) : (overlay ds n).length = n := by simp [overlay]

theorem overlay_nil (n : Nat) : overlay [] n = List.replicate n 0 := by
  apply List.ext_getElem (by simp [overlay])
  intro i h1 h2
  simp [overlay, topByte]

theorem overlay_snoc (ds : List Bytes) (d : Bytes) (n : Nat) :
    overlay (ds ++ [d]) n = copyInto (overlay ds n) d := by
  apply List.ext_getElem?
  intro i
  by_cases hi : i < n
  · have hl : (overlay (ds ++ [d]) n)[i]? = some (topByte (ds ++ [d]) i) := by simp [overlay, hi]
    have ho : (overlay ds n)[i]? = some (topByte ds i) := by simp [overlay, hi]
    rw [hl, topByte_snoc, copyInto, overlay_length]
    by_cases hd : i < d.length
    · rw [List.getElem?_append_left (by simp; omega), List.getElem?_take, if_pos hi]
      simp [hd]
    · have hn : d[i]? = none := by simp; omega
      rw [List.getElem?_append_right (by simp; omega), hn, List.getElem?_drop]
      have : d.length + (i - (d.take n).length) = i := by simp; omega
      rw [this, ho]
      rfl
  · rw [List.getElem?_eq_none (by rw [overlay_length]; omega),
      List.getElem?_eq_none (by rw [copyInto_length, overlay_length]; omega)]

theorem overlay_take (ds : List Bytes) {n m : Nat} (h : n ≤ m) : (overlay ds m).take n = overlay ds n := by
  unfold overlay
  rw [← List.map_take, List.take_range, Nat.min_eq_left h]

/-- The number of parses. -/
def parses : List ExAct → Nat
  | [] => 0
  | .parse :: as => parses as + 1
  | _ :: as => parses as

theorem parses_append (as bs : List ExAct) : parses (as ++ bs) = parses as + parses bs := by
  induction as with
  | nil => simp [parses]
  | cons a as ih => cases a <;> simp [parses, ih]; omega

theorem views_more (b fs gs : List Bytes) (as : List ExAct) (h : parses as ≤ fs.length) :
    views b (fs ++ gs) as = views b fs as := by
  induction as generalizing b fs with
  | nil => simp [views]
  | cons a as ih =>
    cases a with
    | parse =>
      cases fs with
      | nil => simp [parses] at h
      | cons f fs =>
        simp only [List.cons_append, views]
        rw [ih]
        simpa [parses] using h
    | _ => simp only [views]; exact ih _ _ (by simpa [parses] using h)

theorem views_snoc (b fs : List Bytes) (as : List ExAct) (a : ExAct) (ha : a ≠ .parse) :
    views b fs (as ++ [a]) = views b fs as := by
  induction as generalizing b fs with
  | nil => cases a <;> simp [views] at ha ⊢
  | cons x as ih =>
    cases x with
    | parse => cases fs <;> simp [views, ih]
    | _ => simp [views, ih]

theorem views_parse (b pre post : List Bytes) (f : Bytes) (as : List ExAct) (h : parses as = pre.length) :
    views b (pre ++ f :: post) (as ++ [.parse]) =
      views b (pre ++ f :: post) as ++ [overlay (b ++ arrived as) f.length] := by
  induction as generalizing b pre with
  | nil =>
    cases pre with
    | nil => simp [views, arrived]
    | cons x pre => simp [parses] at h
  | cons x as ih =>
    cases x with
    | parse =>
      cases pre with
      | nil => simp [parses] at h
      | cons y pre =>
        simp only [List.cons_append, views, arrived]
        rw [ih b pre (by simpa [parses] using h)]
    | read src d =>
      simp only [List.cons_append, views, arrived]
      rw [ih _ pre (by simpa [parses] using h)]
      simp
    | _ =>
      simp only [List.cons_append, views, arrived]
      exact ih _ pre (by simpa [parses] using h)

/-- The main goroutine, told by what its parses found. -/
def Saw (as : List ExAct) (s : ExPoll) : Prop :=
  match s.main with
  | .wait | .done => parses as = s.handed.length ∧ s.printed = (views [] (foreign as) as).filterMap replyConfig ∧
      ∀ d ∈ views [] (foreign as) as, ¬ OtherPacket d
  | .got n => ∃ pre x, s.handed = pre ++ [x] ∧ x.length = n ∧ parses as = pre.length ∧
      s.printed = (views [] (foreign as) as).filterMap replyConfig ∧ ∀ d ∈ views [] (foreign as) as, ¬ OtherPacket d
  | .panicked => parses as = s.handed.length ∧ ∃ pre d, views [] (foreign as) as = pre ++ [d] ∧
      s.printed = pre.filterMap replyConfig ∧ (∀ d ∈ pre, ¬ OtherPacket d) ∧ OtherPacket d

theorem foreign_short {as : List ExAct} {x : Bytes} (h : x ∈ foreign as) : x.length ≤ 4096 := by
  induction as with
  | nil => cases h
  | cons a as ih =>
    cases a with
    | read src d =>
      rw [foreign] at h
      split at h
      · exact ih h
      · cases h with
        | head => simp; omega
        | tail _ h => exact ih h
    | _ => exact ih h

/-- Everything that is known at some moment. -/
structure Known (as : List ExAct) (s : ExPoll) : Prop where
  feed : Feed (foreign as) s
  buf : s.buf = overlay (arrived as) 4096
  saw : Saw as s
  pending : ∀ n, s.reader = .send n → n ≤ 4096

theorem Feed.prefix {f : List Bytes} {s : ExPoll} (h : Feed f s) : s.handed <+: f := by
  have := h.fed
  split at this
  · rw [this]; exact List.prefix_rfl
  · exact ⟨_, this⟩

theorem Saw.count {as : List ExAct} {s : ExPoll} (h : Saw as s) : parses as ≤ s.handed.length := by
  unfold Saw at h
  split at h
  · exact Nat.le_of_eq h.1
  · exact Nat.le_of_eq h.1
  · obtain ⟨pre, x, h1, _, h3, _⟩ := h
    rw [h1, h3]; simp
  · exact Nat.le_of_eq h.1

/-- A step of somebody else. -/
theorem Saw.idle {as : List ExAct} {a : ExAct} {s s' : ExPoll} (h : Saw as s) (ha : a ≠ .parse)
    (hp : s.handed <+: foreign as)
    (hm : s'.main = s.main ∨ (s.main = .wait ∧ s'.main = .done)) (hh : s'.handed = s.handed)
    (hpr : s'.printed = s.printed) : Saw (as ++ [a]) s' := by
  have hv : views [] (foreign (as ++ [a])) (as ++ [a]) = views [] (foreign as) as := by
    rw [views_snoc _ _ _ _ ha, foreign_append, views_more]
    exact Nat.le_trans h.count hp.length_le
  have hc : parses (as ++ [a]) = parses as := by
    rw [parses_append]
    cases a <;> first | exact absurd rfl ha | rfl
  unfold Saw at h ⊢
  rcases hm with hm | ⟨hm, hm'⟩
  · rw [hm, hv, hc, hh, hpr]; exact h
  · rw [hm'] ; rw [hm] at h; simp only [hv, hc, hh, hpr]; exact h

theorem Known.step {as : List ExAct} {s s' : ExPoll} {a : ExAct} (h : Known as s) (hs : s.step a = some s') :
    Known (as ++ [a]) s' := by
  have hfeed : Feed (foreign (as ++ [a])) s' := by rw [foreign_append]; exact h.feed.step hs
  have hp := h.feed.prefix
  cases a with
  | read src d =>
    have hx : s'.buf = copyInto s.buf d ∧ s'.main = s.main ∧ s'.handed = s.handed ∧ s'.printed = s.printed ∧
        (s'.reader = .read ∨ s'.reader = .send (min 4096 d.length)) := by
      cases hr : s.reader <;> cases hm : s.main <;> simp [ExPoll.step, hr, hm] at hs
      all_goals split at hs <;> (cases hs; simp_all)
    obtain ⟨h1, h2, h3, h4, h5⟩ := hx
    refine ⟨hfeed, ?_, h.saw.idle (by nofun) hp (.inl h2) h3 h4, ?_⟩
    · rw [h1, h.buf, arrived_append]
      exact (overlay_snoc _ _ _).symm
    · intro n hn
      rcases h5 with h5 | h5
      · rw [h5] at hn; cases hn
      · rw [h5] at hn; cases hn; omega
  | readError =>
    have : s' = s := by
      cases hr : s.reader <;> cases hm : s.main <;> simp [ExPoll.step, hr, hm] at hs <;> exact hs.symm
    subst this
    exact ⟨hfeed, by rw [arrived_append]; simpa [arrived] using h.buf, h.saw.idle (by nofun) hp (.inl rfl) rfl rfl,
      h.pending⟩
  | timeout =>
    cases hm : s.main <;> simp [ExPoll.step, hm] at hs
    subst hs
    exact ⟨hfeed, by rw [arrived_append]; simpa [arrived] using h.buf,
      h.saw.idle (by nofun) hp (.inr ⟨hm, rfl⟩) rfl rfl, h.pending⟩
  | hand =>
    cases hr : s.reader <;> cases hm : s.main <;> simp [ExPoll.step, hr, hm] at hs
    rename_i n
    subst hs
    refine ⟨hfeed, by rw [arrived_append]; simpa [arrived] using h.buf, ?_, by nofun⟩
    have hsaw := h.saw
    unfold Saw at hsaw
    rw [hm] at hsaw
    obtain ⟨h1, h2, h3⟩ := hsaw
    have hv : views [] (foreign (as ++ [.hand])) (as ++ [.hand]) = views [] (foreign as) as := by
      rw [views_snoc _ _ _ _ (by nofun), foreign_append]
      simp [foreign]
    have hc : parses (as ++ [.hand]) = parses as := by rw [parses_append]; rfl
    unfold Saw
    simp only
    rw [hv, hc]
    refine ⟨_, _, rfl, ?_, h1, h2, h3⟩
    rw [List.length_take, h.feed.len, Nat.min_eq_left (h.pending n hr)]
  | parse =>
    have hbuf : s'.buf = s.buf ∧ s'.reader = s.reader := by
      cases hm : s.main <;> simp [ExPoll.step, hm] at hs
      split at hs <;> (cases hs; exact ⟨rfl, rfl⟩)
    refine ⟨hfeed, by rw [arrived_append, hbuf.1]; simpa [arrived] using h.buf, ?_, by rw [hbuf.2]; exact h.pending⟩
    cases hm : s.main with
    | got n =>
      have hsaw := h.saw
      unfold Saw at hsaw
      rw [hm] at hsaw
      obtain ⟨pre, x, h1, h2, h3, h4, h5⟩ := hsaw
      obtain ⟨post, hpost⟩ := hp
      have hf : foreign as = pre ++ x :: post := by rw [← hpost, h1]; simp
      have hx : x.length ≤ 4096 := foreign_short (as := as) (by rw [hf]; simp)
      have hfp : foreign (as ++ [.parse]) = foreign as := by rw [foreign_append]; simp [foreign]
      have hv : views [] (foreign (as ++ [.parse])) (as ++ [.parse]) =
          views [] (foreign as) as ++ [s.buf.take n] := by
        rw [hfp, hf, views_parse _ _ _ _ _ h3, h.buf, overlay_take _ (by omega), h2]
        simp
      have hc : parses (as ++ [.parse]) = s.handed.length := by
        rw [parses_append, h3, h1]; simp [parses]
      rcases parse_cases (s.buf.take n) with ⟨p, hp⟩ | ho | ⟨p, e, hp⟩
      · simp [ExPoll.step, hm, hp] at hs
        subst hs
        have hr : replyConfig (s.buf.take n) = some (configFromArtPollReply p) := by simp [replyConfig, hp]
        have hn : ¬ OtherPacket (s.buf.take n) := by
          rintro ⟨q, hq, hne⟩
          rw [hp] at hq
          cases hq
          exact hne rfl
        unfold Saw
        simp only
        rw [hv]
        refine ⟨hc, by rw [h4]; simp [hr], fun d hd => ?_⟩
        rw [List.mem_append, List.mem_singleton] at hd
        rcases hd with hd | rfl
        · exact h5 d hd
        · exact hn
      · have : s' = { s with main := .panicked } := by
          obtain ⟨q, hq, hne⟩ := ho
          cases q <;> simp [ExPoll.step, hm, hq] at hs <;> first | exact hs.symm | exact absurd rfl hne
        subst this
        exact ⟨hc, _, _, hv, h4, h5, ho⟩
      · simp [ExPoll.step, hm, hp] at hs
        subst hs
        have hr : replyConfig (s.buf.take n) = none := by simp [replyConfig, hp]
        have hn : ¬ OtherPacket (s.buf.take n) := by
          rintro ⟨q, hq, hne⟩
          rw [hp] at hq
          cases hq
        unfold Saw
        simp only
        rw [hv]
        refine ⟨hc, by rw [h4]; simp [hr], fun d hd => ?_⟩
        rw [List.mem_append, List.mem_singleton] at hd
        rcases hd with hd | rfl
        · exact h5 d hd
        · exact hn
    | _ => simp [ExPoll.step, hm] at hs

theorem known_of_steps {as : List ExAct} {s : ExPoll} (h : ExPoll.init.steps as = some s) : Known as s := by
  have h0 : Known [] ExPoll.init :=
    ⟨init_feed, (overlay_nil 4096).symm, ⟨rfl, rfl, fun _ h => nomatch h⟩, by nofun⟩
  have := steps_inv (P := Known) (fun pre s a s' h hs => h.step hs) (pre := []) h0 h
  simpa using this

theorem views_lengths (b fs : List Bytes) (as : List ExAct) :
    (views b fs as).map List.length <+: fs.map List.length := by
  induction as generalizing b fs with
  | nil => simp [views]
  | cons a as ih =>
    cases a with
    | parse =>
      cases fs with
      | nil => simpa [views] using ih b []
      | cons f fs =>
        simp only [views, List.map_cons, overlay_length]
        exact (List.prefix_cons_inj _).mpr (ih b fs)
    | _ => simp only [views]; exact ih _ _

theorem views_count (b fs : List Bytes) (as : List ExAct) (h : parses as ≤ fs.length) :
    (views b fs as).length = parses as := by
  induction as generalizing b fs with
  | nil => simp [views, parses]
  | cons a as ih =>
    cases a with
    | parse =>
      cases fs with
      | nil => simp [parses] at h
      | cons f fs =>
        simp only [views, parses, List.length_cons]
        rw [ih b fs (by simpa [parses] using h)]
    | _ => simp only [views, parses]; exact ih _ _ (by simpa [parses] using h)

theorem overlay_last (ds : List Bytes) (d : Bytes) : overlay (ds ++ [d]) d.length = d := by
  rw [overlay_snoc, copyInto, overlay_length, List.take_length, List.drop_eq_nil_of_le (by rw [overlay_length]; omega),
    List.append_nil]

/-- Datagrams of one length replace one another. -/
theorem views_whole {l : Nat} (b fs : List Bytes) (as : List ExAct) (hb : b ≠ []) (hl : ∀ d ∈ b ++ arrived as, d.length = l)
    (hf : ∀ f ∈ fs, f.length = l) : ∀ v ∈ views b fs as, v ∈ b ++ arrived as := by
  induction as generalizing b fs with
  | nil => simp [views]
  | cons a as ih =>
    cases a with
    | parse =>
      cases fs with
      | nil => exact ih b [] hb hl hf
      | cons f fs =>
        intro v hv
        rw [views] at hv
        cases hv with
        | head =>
          obtain ⟨b', x, rfl⟩ : ∃ b' x, b = b' ++ [x] :=
            ⟨b.dropLast, b.getLast hb, (List.dropLast_concat_getLast hb).symm⟩
          have h1 : x.length = f.length := by
            rw [hl x (by simp), hf f (by simp)]
          rw [← h1, overlay_last]
          simp
        | tail _ hv => exact ih b fs hb hl (fun f h => hf f (by simp [h])) v hv
    | read src d =>
      intro v hv
      rw [views] at hv
      have := ih (b ++ [d]) fs (by simp) (by simpa [arrived] using hl) hf v hv
      simpa [arrived] using this
    | _ => exact ih b fs hb hl hf

/-- Before the first datagram there is nothing to parse. -/
theorem views_start {l : Nat} (fs : List Bytes) {as : List ExAct} {s s' : ExPoll} (hs : s.steps as = some s')
    (hr : s.reader = .read) (hm : s.main = .wait ∨ s.main = .done) (hl : ∀ d ∈ arrived as, d.length = l)
    (hf : ∀ f ∈ fs, f.length = l) : ∀ v ∈ views [] fs as, v ∈ arrived as := by
  induction as generalizing s with
  | nil => simp [views]
  | cons a as ih =>
    rw [ExPoll.steps] at hs
    cases a with
    | read src d =>
      intro v hv
      rw [views] at hv
      have := views_whole ([] ++ [d]) fs as (by simp) (by simpa [arrived] using hl) hf v hv
      simpa [arrived] using this
    | readError =>
      rcases hm with hm | hm <;> simp [ExPoll.step, hr, hm] at hs
      exact ih hs hr (.inl hm) hl
    | hand => rcases hm with hm | hm <;> simp [ExPoll.step, hr, hm] at hs
    | parse => rcases hm with hm | hm <;> simp [ExPoll.step, hm] at hs
    | timeout =>
      rcases hm with hm | hm <;> simp [ExPoll.step, hm] at hs
      exact ih hs hr (.inr rfl) hl

theorem foreign_arrived {as : List ExAct} {l : Nat} (hl : ∀ d ∈ arrived as, d.length = l) (h : l ≤ 4096) :
    ∀ f ∈ foreign as, f.length = l := by
  induction as with
  | nil => simp [foreign]
  | cons a as ih =>
    cases a with
    | read src d =>
      have hd := hl d (by simp [arrived])
      have ih := ih fun x hx => hl x (by simp [arrived, hx])
      rw [foreign]
      split
      · exact ih
      · intro f hf
        cases hf with
        | head => simp; omega
        | tail _ hf => exact ih f hf
    | _ => exact ih hl

theorem other_not_reply {d : Bytes} (h : OtherPacket d) : replyConfig d = none := by
  obtain ⟨p, hp, hne⟩ := h
  unfold replyConfig
  rw [hp]
  cases p with
  | pollReply q => exact absurd rfl hne
  | _ => rfl

end Verif.Example
