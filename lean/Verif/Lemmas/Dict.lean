import Verif.Lemmas.Py

/-! # Lemmas on dictionaries built from pairs -/

namespace Dcf

variable {α β : Type} [DecidableEq α]

theorem Dict.get_none {d : Dict α β} {k : α} : d.get k = none ↔ k ∉ d.map Prod.fst := by
  induction d with
  | nil => simp [Dict.get]
  | cons p l ih =>
    obtain ⟨a, b⟩ := p
    simp only [Dict.get, List.map_cons, List.mem_cons, not_or]
    by_cases h : a = k
    · simp [h]
    · simp [h, ih, Ne.symm h]

theorem Dict.get_mem {d : Dict α β} {k : α} {v : β} (h : d.get k = some v) : (k, v) ∈ d := by
  induction d with
  | nil => simp [Dict.get] at h
  | cons p l ih =>
    obtain ⟨a, b⟩ := p
    simp only [Dict.get] at h
    by_cases e : a = k
    · subst e; simp at h; simp [h]
    · simp only [e, if_false] at h; exact List.mem_cons_of_mem _ (ih h)

theorem Dict.get_append (d e : Dict α β) (k : α) : Dict.get (d ++ e) k = (d.get k).or (e.get k) := by
  induction d with
  | nil => simp [Dict.get]
  | cons p l ih =>
    obtain ⟨a, b⟩ := p
    simp only [List.cons_append, Dict.get, ih]
    by_cases h : a = k <;> simp [h]

theorem Dict.get_foldl_set (l : List (α × β)) (d : Dict α β) (k : α) :
    Dict.get (l.foldl (fun d p => Dict.set d p.1 p.2) d) k = (Dict.get l.reverse k).or (d.get k) := by
  induction l generalizing d with
  | nil => simp [Dict.get]
  | cons p l ih =>
    obtain ⟨a, b⟩ := p
    simp only [List.foldl_cons, ih, List.reverse_cons, Dict.get_append, Dict.get_set, Dict.get]
    cases Dict.get l.reverse k with
    | some v => simp
    | none => by_cases h : a = k <;> simp [h]

/-- `dict(pairs).get(k)` is the last pair with that key. -/
theorem Dict.get_ofPairs (l : List (α × β)) (k : α) : (Dict.ofPairs l).get k = Dict.get l.reverse k := by
  rw [Dict.ofPairs, Dict.get_foldl_set]; simp [Dict.get]

theorem Dict.get_ofPairs_none {l : List (α × β)} {k : α} (h : k ∉ l.map Prod.fst) : (Dict.ofPairs l).get k = none := by
  rw [Dict.get_ofPairs, Dict.get_none]; simpa using h

theorem Dict.get_ofPairs_split (a b : List (α × β)) (k : α) (v : β) (h : k ∉ b.map Prod.fst) :
    (Dict.ofPairs (a ++ (k, v) :: b)).get k = some v := by
  rw [Dict.get_ofPairs]
  simp only [List.reverse_append, List.reverse_cons, List.append_assoc]
  rw [Dict.get_append, Dict.get_none.2 (by simpa using h)]
  simp [Dict.get]

theorem Dict.get_ofPairs_idx (l : List (α × β)) (i : ℕ) (hi : i < l.length)
    (h : ∀ j (hj : j < l.length), i < j → (l[j]).1 ≠ (l[i]).1) : (Dict.ofPairs l).get (l[i]).1 = some (l[i]).2 := by
  have e : l = l.take i ++ l[i] :: l.drop (i + 1) := by simp
  have := Dict.get_ofPairs_split (l.take i) (l.drop (i + 1)) (l[i]).1 (l[i]).2 (by
    intro hm
    obtain ⟨p, hp, he⟩ := List.mem_map.1 hm
    obtain ⟨j, hj, rfl⟩ := List.mem_iff_getElem.1 hp
    rw [List.getElem_drop] at he
    exact h _ (by simp at hj; omega) (by omega) he)
  rwa [Prod.mk.eta, ← e] at this

theorem Dict.set_new {d : Dict α β} {k : α} (v : β) (h : k ∉ d.map Prod.fst) : Dict.set d k v = d ++ [(k, v)] := by
  induction d with
  | nil => rfl
  | cons p l ih =>
    obtain ⟨a, b⟩ := p
    simp only [List.map_cons, List.mem_cons, not_or] at h
    simp [Dict.set, Ne.symm h.1, ih h.2]

/-- Pairs with different keys are the dictionary. -/
theorem Dict.ofPairs_nodup {l : List (α × β)} (h : (l.map Prod.fst).Nodup) : Dict.ofPairs l = l := by
  have : ∀ (l d : List (α × β)), ((d ++ l).map Prod.fst).Nodup → l.foldl (fun d p => Dict.set d p.1 p.2) d = d ++ l := by
    intro l
    induction l with
    | nil => intro d _; simp
    | cons p l ih =>
      intro d hd
      have hk : p.1 ∉ d.map Prod.fst := by
        intro hm
        rw [List.map_append, List.nodup_append] at hd
        exact hd.2.2 _ hm p.1 (by simp) rfl
      rw [List.foldl_cons, Dict.set_new _ hk, ih _ (by simpa using hd)]
      simp
  unfold Dict.ofPairs
  simpa using this l [] (by simpa using h)

theorem Dict.get_map {γ : Type} (d : Dict α β) (f : β → γ) (k : α) :
    Dict.get (d.map fun p => (p.1, f p.2)) k = (d.get k).map f := by
  induction d with
  | nil => rfl
  | cons p l ih =>
    obtain ⟨a, b⟩ := p
    simp only [List.map_cons, Dict.get, ih]
    by_cases h : a = k <;> simp [h]

theorem Dict.keys_set (d : Dict α β) (k : α) (v : β) (x : α) :
    x ∈ (Dict.set d k v).map Prod.fst ↔ x = k ∨ x ∈ d.map Prod.fst := by
  rw [← not_iff_not, ← Dict.get_none, Dict.get_set, not_or, ← Dict.get_none]
  by_cases h : k = x
  · simp [h]
  · simp [h, Ne.symm h]

theorem Dict.mem_ofPairs_keys (l : List (α × β)) (x : α) :
    x ∈ (Dict.ofPairs l).map Prod.fst ↔ x ∈ l.map Prod.fst := by
  rw [← not_iff_not, ← Dict.get_none, Dict.get_ofPairs, Dict.get_none]; simp

theorem Dict.mem_of_foldl (l : List (α × β)) (d : Dict α β) {p : α × β} (h : p ∈ l.foldl (fun d p => Dict.set d p.1 p.2) d) :
    p ∈ l ∨ p ∈ d := by
  induction l generalizing d with
  | nil => exact .inr h
  | cons q l ih =>
    rcases ih _ h with h | h
    · exact .inl (List.mem_cons_of_mem _ h)
    · have : ∀ d : Dict α β, p ∈ Dict.set d q.1 q.2 → p = q ∨ p ∈ d := by
        intro d
        induction d with
        | nil => intro h; simp [Dict.set] at h; exact .inl h
        | cons r d ihd =>
          intro h
          simp only [Dict.set] at h
          split_ifs at h with e
          · rcases List.mem_cons.1 h with h | h
            · left; rw [h, e]
            · exact .inr (List.mem_cons_of_mem _ h)
          · rcases List.mem_cons.1 h with h | h
            · right; simp [h]
            · rcases ihd h with h | h
              · exact .inl h
              · exact .inr (List.mem_cons_of_mem _ h)
      rcases this d h with h | h
      · exact .inl (by simp [h])
      · exact .inr h

theorem Dict.mem_of_ofPairs {l : List (α × β)} {p : α × β} (h : p ∈ Dict.ofPairs l) : p ∈ l := by
  rcases Dict.mem_of_foldl l [] h with h | h
  · exact h
  · simp at h

end Dcf
