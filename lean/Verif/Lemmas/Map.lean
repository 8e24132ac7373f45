import Verif.Go.Basic
/-
Lemmas about Go maps as association lists.
-/
namespace Verif.GoMap
variable {K V : Type} [DecidableEq K]

theorem del_cons (e : K × V) (m : GoMap K V) (k : K) :
    GoMap.del (e :: m) k = if e.1 = k then m.del k else e :: m.del k := by
  by_cases h : e.1 = k
  · rw [if_pos h]
    exact List.filter_cons_of_neg (by simp [h])
  · rw [if_neg h]
    exact List.filter_cons_of_pos (by simp [h])

theorem get_del_same (m : GoMap K V) (k : K) : (m.del k).get k = none := by
  induction m with
  | nil => rfl
  | cons e m ih =>
    rw [del_cons]
    by_cases h : e.1 = k
    · rw [if_pos h, ih]
    · rw [if_neg h]
      simp [get, h, ih]

theorem get_del_ne (m : GoMap K V) {k k' : K} (h : k' ≠ k) : (m.del k).get k' = m.get k' := by
  induction m with
  | nil => rfl
  | cons e m ih =>
    rw [del_cons]
    by_cases he : e.1 = k
    · have : e.1 ≠ k' := fun h' => h (h'.symm.trans he)
      rw [if_pos he, ih]
      simp [get, this]
    · rw [if_neg he]
      simp [get, ih]

theorem get_set_same (m : GoMap K V) (k : K) (v : V) : (m.set k v).get k = some v := by
  simp [set, get]

theorem get_set_ne (m : GoMap K V) {k k' : K} (v : V) (h : k' ≠ k) : (m.set k v).get k' = m.get k' := by
  have : k ≠ k' := fun h' => h h'.symm
  simp [set, get, this, get_del_ne m h]

theorem get_del (m : GoMap K V) (k k' : K) : (m.del k).get k' = if k' = k then none else m.get k' := by
  by_cases h : k' = k
  · rw [if_pos h, h, get_del_same]
  · rw [if_neg h, get_del_ne m h]

theorem get_set (m : GoMap K V) (k k' : K) (v : V) :
    (m.set k v).get k' = if k' = k then some v else m.get k' := by
  by_cases h : k' = k
  · rw [if_pos h, h, get_set_same]
  · rw [if_neg h, get_set_ne m v h]

theorem mem_keys_iff (m : GoMap K V) (k : K) : k ∈ m.keys ↔ ∃ v, m.get k = some v := by
  induction m with
  | nil => simp [keys, get]
  | cons e m ih =>
    by_cases h : e.1 = k
    · simp [keys, get, h]
    · have h' : ¬ k = e.1 := fun h' => h h'.symm
      simp only [keys, List.map_cons, List.mem_cons, h', false_or, get, h, if_false]
      exact ih

theorem wf_del {m : GoMap K V} (h : m.WF) (k : K) : (m.del k).WF := by
  unfold WF keys del at *
  exact List.Nodup.sublist (List.Sublist.map _ List.filter_sublist) h

theorem wf_set {m : GoMap K V} (h : m.WF) (k : K) (v : V) : (m.set k v).WF := by
  have h' := wf_del h k
  unfold WF keys set at *
  rw [List.map_cons, List.nodup_cons]
  refine ⟨?_, h'⟩
  intro hm
  obtain ⟨v', hv⟩ := (mem_keys_iff (m.del k) k).mp hm
  rw [get_del_same] at hv
  exact absurd hv (by simp)

end Verif.GoMap
