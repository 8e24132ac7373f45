import Verif.Lemmas.Tickers
/-
How many ticks can be received until a moment.
-/
namespace Verif.Conc
open Packet Code Artnet Spec

theorem rated_pos {P : Params} {q : Clockwork} {d : Int} (h : Rated P q d) : 0 < d := by
  cases q with
  | poll | gc => rw [show d = pollInterval from h]; decide
  | update =>
    have h : tickerPeriod P.maxFPS = .ok d := h
    simp only [tickerPeriod] at h
    split at h
    · cases h
    · split at h
      · cases h
      · cases h; omega

theorem rated_unique {P : Params} {q : Clockwork} {d e : Int} (h : Rated P q d) (h' : Rated P q e) : d = e := by
  cases q with
  | poll | gc => exact h.trans h'.symm
  | update => exact Except.ok.inj (h.symm.trans h')

def sumW (f : Ticker → Int) : List Ticker → Int
  | [] => 0
  | x :: l => f x + sumW f l

theorem sumW_append (f : Ticker → Int) (l m : List Ticker) : sumW f (l ++ m) = sumW f l + sumW f m := by
  induction l with
  | nil => simp [sumW]
  | cons x l ih => simp only [List.cons_append, sumW, ih]; omega

theorem sumW_set (f : Ticker → Int) {l : List Ticker} {k : Nat} {x : Ticker} (h : l[k]? = some x) (y : Ticker) :
    sumW f (l.set k y) = sumW f l - f x + f y := by
  induction l generalizing k with
  | nil => simp at h
  | cons z l ih =>
    cases k with
    | zero => simp at h; subst h; simp only [List.set_cons_zero, sumW]; omega
    | succ k =>
      simp at h
      simp only [List.set_cons_succ, sumW, ih h]
      omega

theorem sumW_modify (f : Ticker → Int) (l : List Ticker) (k : Nat) (g : Ticker → Ticker) (hf : ∀ x ∈ l, f x ≤ f (g x)) :
    sumW f l ≤ sumW f (l.modify k g) := by
  induction l generalizing k with
  | nil => simp
  | cons z l ih =>
    cases k with
    | zero =>
      simp only [List.modify_zero_cons, sumW]
      have := hf z List.mem_cons_self
      omega
    | succ k =>
      simp only [List.modify_succ_cons, sumW]
      have := ih k fun x hx => hf x (List.mem_cons_of_mem _ hx)
      omega

/-- The tickers of a variable have its period and are never more than a period ahead. -/
def Wound (P : Params) (q : Clockwork) (clock : Int) (l : List Ticker) : Prop :=
  ∀ x ∈ l, Rated P q x.period ∧ x.due ≤ clock + x.period

theorem Wound.later {P : Params} {q : Clockwork} {c c' : Int} {l : List Ticker} (h : Wound P q c l) (hc : c ≤ c') : Wound P q c' l :=
  fun x hx => ⟨(h x hx).1, by have := (h x hx).2; omega⟩

theorem mem_modify {l : List α} {k : Nat} {f : α → α} {x : α} (h : x ∈ l.modify k f) : x ∈ l ∨ ∃ y ∈ l, x = f y := by
  induction l generalizing k with
  | nil => simp at h
  | cons z l ih =>
    cases k with
    | zero =>
      simp only [List.modify_zero_cons, List.mem_cons] at h
      rcases h with rfl | h
      · exact .inr ⟨z, List.mem_cons_self, rfl⟩
      · exact .inl (List.mem_cons_of_mem _ h)
    | succ k =>
      simp only [List.modify_succ_cons, List.mem_cons] at h
      rcases h with rfl | h
      · exact .inl List.mem_cons_self
      · rcases ih h with h | ⟨y, hy, rfl⟩
        · exact .inl (List.mem_cons_of_mem _ h)
        · exact .inr ⟨y, List.mem_cons_of_mem _ hy, rfl⟩

theorem fire_due {c d p : Int} (hp : 0 < p) (hd : d ≤ c) : d + p ≤ d + p * (1 + (c - d) / p) ∧ d + p * (1 + (c - d) / p) ≤ c + p := by
  have h1 := Int.mul_ediv_self_le (x := c - d) (Int.ne_of_gt hp)
  have h2 : 0 ≤ (c - d) / p := Int.ediv_nonneg (by omega) (by omega)
  have h3 := Int.mul_nonneg (Int.le_of_lt hp) h2
  rw [Int.mul_add, Int.mul_one]
  omega

theorem wind_wound {P : Params} {q : Clockwork} {c : Int} {l l' : List Ticker} {n : Nat} (h : Wind P q c l l' n)
    (hw : Wound P q c l) : Wound P q c l' := by
  cases h with
  | same => exact hw
  | @new d hd =>
    intro x hx
    rcases List.mem_append.mp hx with hx | hx
    · exact hw x hx
    · cases List.mem_singleton.mp hx
      exact ⟨hd, Int.le_refl _⟩
  | stop k b =>
    intro x hx
    rcases mem_modify hx with hx | ⟨y, hy, rfl⟩
    · exact hw x hx
    · exact hw y hy
  | take h ht =>
    intro x hx
    rcases List.mem_or_eq_of_mem_set hx with hx | rfl
    · exact hw x hx
    · have := hw _ (List.mem_of_getElem? h)
      exact this
  | fire h hs hd =>
    intro x hx
    rcases List.mem_or_eq_of_mem_set hx with hx | rfl
    · exact hw x hx
    · have := hw _ (List.mem_of_getElem? h)
      exact ⟨this.1, (fire_due (rated_pos this.1) hd).2⟩

/-- Never falls, and grows by the period when a tick is received. -/
structure Grows (f : Ticker → Int) (c d : Int) : Prop where
  new : 0 ≤ f (Ticker.new c d)
  stop : ∀ x b, x.period = d → f x ≤ f (x.stop b)
  take : ∀ x, x.period = d → x.tick = true → f x + d ≤ f { x with tick := false }
  fire : ∀ x, x.period = d → x.due ≤ c → f x ≤ f (x.fire c)

theorem wind_worth {P : Params} {q : Clockwork} {c d : Int} {l l' : List Ticker} {n : Nat} {f : Ticker → Int}
    (h : Wind P q c l l' n) (hw : Wound P q c l) (hd : Rated P q d) (hf : Grows f c d) : sumW f l + n * d ≤ sumW f l' := by
  cases h with
  | same => simp
  | new hd' =>
    rw [sumW_append, ← rated_unique hd hd']
    have := hf.new
    simp only [sumW]
    simp
    omega
  | stop k b =>
    have := sumW_modify f l k (Ticker.stop b) fun x hx => hf.stop x b (rated_unique (hw x hx).1 hd)
    simpa using this
  | @take _ x h ht =>
    have hr := (hw _ (List.mem_of_getElem? h)).1
    rw [sumW_set _ h]
    have := hf.take x (rated_unique hr hd) ht
    simp
    omega
  | @fire _ x h hs hd' =>
    rw [sumW_set _ h]
    have := hf.fire x (rated_unique (hw _ (List.mem_of_getElem? h)).1 hd) hd'
    simp
    omega

theorem sumW_le {f : Ticker → Int} {m : Int} {l : List Ticker} (h : ∀ x ∈ l, f x ≤ m) : sumW f l ≤ l.length * m := by
  induction l with
  | nil => simp [sumW]
  | cons x l ih =>
    have h1 := ih fun y hy => h y (List.mem_cons_of_mem _ hy)
    have h2 := h x List.mem_cons_self
    rw [List.length_cons, Int.natCast_add, Int.add_mul]
    simp only [sumW]
    omega

theorem sumW_nonneg {f : Ticker → Int} {l : List Ticker} (h : ∀ x ∈ l, 0 ≤ f x) : 0 ≤ sumW f l := by
  induction l with
  | nil => exact Int.le_refl _
  | cons x l ih =>
    have h1 := ih fun y hy => h y (List.mem_cons_of_mem _ hy)
    have h2 := h x List.mem_cons_self
    simp only [sumW]
    omega

theorem programActs_cons (a : TimedAct) (as : List TimedAct) : programActs (a :: as) = programActs [a] ++ programActs as := by
  rw [programActs, programActs, programActs, ← List.filterMap_append]
  rfl

theorem received_cons {b : Bool} {P : Params} {t t' : Timed} {a : TimedAct} (h : t.exec b P a = some t') (q : Clockwork)
    (as : List TimedAct) : ticksReceived P q t.sys (programActs (a :: as)) =
      got t.sys q a + ticksReceived P q t'.sys (programActs as) := by
  have hs := exec_sys h
  rw [programActs_cons]
  cases a with
  | fire | pass =>
    simp only [programActs, List.filterMap_cons, List.filterMap_nil, Sys.execs] at hs
    have hs := Option.some.inj hs
    simp [programActs, got, hs]
  | act a =>
    simp only [programActs, List.filterMap_cons, List.filterMap_nil, Sys.execs] at hs
    cases hx : t.sys.exec P a with
    | none => rw [hx] at hs; cases hs
    | some s =>
      rw [hx] at hs
      have hs := Option.some.inj hs
      simp [programActs, got, ticksReceived, hx, hs]

theorem received_le {b : Bool} {P : Params} {as : List TimedAct} {t t' : Timed} (h : t.execs b P as = some t') (q : Clockwork) {d : Int}
    (hd : Rated P q d) (hw : Wound P q t.clock (t.tickers q)) {f : Ticker → Int} (hf : ∀ c, t.clock ≤ c → Grows f c d) :
    sumW f (t.tickers q) + ticksReceived P q t.sys (programActs as) * d ≤ sumW f (t'.tickers q) ∧
      Wound P q t'.clock (t'.tickers q) ∧ t.clock ≤ t'.clock := by
  induction as generalizing t with
  | nil => cases h; exact ⟨by simp [programActs, ticksReceived], hw, Int.le_refl _⟩
  | cons a as ih =>
    simp only [Timed.execs] at h
    cases hx : t.exec b P a with
    | none => rw [hx] at h; cases h
    | some t1 =>
      rw [hx] at h
      obtain ⟨h1, h2⟩ := exec_wind hx q
      obtain ⟨h3, h4, h5⟩ := ih h ((wind_wound h1 hw).later h2) fun c hc => hf c (by omega)
      refine ⟨?_, h4, by omega⟩
      have h6 := wind_worth h1 hw hd (hf _ (Int.le_refl _))
      rw [received_cons hx, Int.natCast_add, Int.add_mul]
      omega

/-- The moment until which the ticks that were sent and are not there any more are due. -/
def worth (x : Ticker) : Int := x.due - x.period - if x.tick then x.period else 0

theorem worth_grows {c d : Int} (hd : 0 < d) (hc : 0 ≤ c) : Grows worth c d := by
  refine ⟨?_, ?_, ?_, ?_⟩
  · simp [worth, Ticker.new]
    omega
  · intro x b hp
    simp only [worth, Ticker.stop]
    by_cases hx : x.tick = true <;> cases b <;> simp [hx]
    omega
  · intro x hp ht
    simp [worth, ht]
    omega
  · intro x hp hx
    subst hp
    have := fire_due hd hx
    simp only [worth, Ticker.fire]
    by_cases hx : x.tick = true <;> simp [hx] <;> omega

theorem received_total {b : Bool} {P : Params} {as : List TimedAct} {t : Timed} (h : (Timed.init P).execs b P as = some t)
    (q : Clockwork) {d : Int} (hd : Rated P q d) :
    ticksReceived P q (Sys.init P) (programActs as) * d ≤ (t.tickers q).length * t.clock ∧
      Wound P q t.clock (t.tickers q) ∧ 0 ≤ t.clock := by
  obtain ⟨h1, h2, h3⟩ := received_le h q hd (fun x hx => (by cases hx)) (f := worth) (fun c hc => worth_grows (rated_pos hd) hc)
  have hle : ∀ x ∈ t.tickers q, worth x ≤ t.clock := by
    intro x hx
    obtain ⟨h4, h5⟩ := h2 x hx
    have := rated_pos h4
    simp only [worth]
    split <;> omega
  refine ⟨Int.le_trans ?_ (sumW_le hle), h2, h3⟩
  have h0 : sumW worth ((Timed.init P).tickers q) = 0 := rfl
  rw [h0] at h1
  have : (Timed.init P).sys = Sys.init P := rfl
  rw [this] at h1
  omega

/-- The same for the time after `c1`. -/
def worthSince (c1 d : Int) (x : Ticker) : Int :=
  (if x.due ≤ c1 then c1 - d else x.due) - (if x.tick then d else 0) - (c1 - 2 * d)

theorem since_grows {c1 c d : Int} (hd : 0 < d) (hc : c1 ≤ c) : Grows (worthSince c1 d) c d := by
  refine ⟨?_, ?_, ?_, ?_⟩
  · show 0 ≤ (if c + d ≤ c1 then c1 - d else c + d) - 0 - (c1 - 2 * d)
    split <;> omega
  · intro x b hp
    simp only [worthSince, Ticker.stop]
    by_cases hx : x.tick = true <;> cases b <;> simp [hx]
    all_goals (repeat' split)
    all_goals omega
  · intro x hp ht
    simp [worthSince, ht]
    omega
  · intro x hp hx
    subst hp
    have h1 := fire_due hd hx
    have h2 : c < x.due + x.period * (1 + (c - x.due) / x.period) := by
      have := Int.lt_mul_ediv_self_add (x := c - x.due) hd
      rw [Int.mul_add]
      omega
    revert h1 h2
    generalize hv : x.due + x.period * (1 + (c - x.due) / x.period) = v
    intro h1 h2
    have e : worthSince c1 x.period (x.fire c) = (if v ≤ c1 then c1 - x.period else v) - x.period - (c1 - 2 * x.period) := by
      subst hv; rfl
    rw [e]
    simp only [worthSince]
    repeat' split
    all_goals omega

theorem received_since {b : Bool} {P : Params} {as : List TimedAct} {t t' : Timed} (h : t.execs b P as = some t')
    (q : Clockwork) {d : Int} (hd : Rated P q d) (hw : Wound P q t.clock (t.tickers q)) :
    ticksReceived P q t.sys (programActs as) * d ≤ (t'.tickers q).length * (t'.clock - t.clock + 3 * d) := by
  have hp := rated_pos hd
  obtain ⟨h1, h2, h3⟩ := received_le h q hd hw (f := worthSince t.clock d) (fun c hc => since_grows hp hc)
  have hle : ∀ x ∈ t'.tickers q, worthSince t.clock d x ≤ t'.clock - t.clock + 3 * d := by
    intro x hx
    obtain ⟨h4, h5⟩ := h2 x hx
    have := rated_unique h4 hd
    simp only [worthSince]
    repeat' split
    all_goals omega
  have hge : 0 ≤ sumW (worthSince t.clock d) (t.tickers q) := by
    apply sumW_nonneg
    intro x hx
    simp only [worthSince]
    repeat' split
    all_goals omega
  have := sumW_le hle
  omega

end Verif.Conc
