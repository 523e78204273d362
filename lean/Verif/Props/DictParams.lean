import Verif.Model.DictParams
import Verif.Model.HodGrid

/-!
# C146: dictionary parameters are shared by reference

`Spec` is what a caller has in mind: every object has its own dictionary, `update` adds entries to it (an empty one clears it), every
read computes from the current values.  The code does that as long as a dictionary that was handed over is not used again
(`Careful`); the other theorems say what happens when it is.
-/

namespace Verif.DictParams

variable {K V E R : Type}

/-! ## What a caller has in mind -/

/-- the dictionaries of the caller, and per object its dictionary and its other parameters -/
structure Spec (K V E : Type) where
  dicts : List (Dict K V)
  objs : List (Dict K V × E)

open Classical in
/-- one step, without any sharing or storing -/
noncomputable def Spec.step (c : Cls K V E R) (s : Spec K V E) : Op K V E → Spec K V E × Option R
  | .dict d => (⟨s.dicts ++ [d], s.objs⟩, none)
  | .write j k v => ({ s with dicts := s.dicts.modify j fun d k' => if k' = k then v else d k' }, none)
  | .build j e => ({ s with objs := s.objs ++ [((j.bind fun j => s.dicts[j]?).getD fun _ => none, e)] }, none)
  | .update i j =>
    match s.dicts[j]? with
    | none => (s, none)
    | some n => ({ s with objs := s.objs.modify i fun x => (if ∀ k, n k = none then n else fun k => (n k).orElse fun _ => x.1 k, x.2) }, none)
  | .other i e => ({ s with objs := s.objs.modify i fun x => (x.1, e) }, none)
  | .read i =>
    ({ s with objs := s.objs.modify i fun x => (merge x.1 (c.extra x.2), x.2) },
      s.objs[i]?.map fun x => c.quantity (merge x.1 (c.extra x.2)) x.2)

/-- a program -/
noncomputable def Spec.run (c : Cls K V E R) : Spec K V E → List (Op K V E) → Spec K V E × List (Option R)
  | s, [] => (s, [])
  | s, op :: ops => ((Spec.run c (s.step c op).1 ops).1, (s.step c op).2 :: (Spec.run c (s.step c op).1 ops).2)

open Classical in
/-- the dictionaries that an object now owns: one that was given to a constructor, unless it was empty, or an empty one given to `update` -/
noncomputable def Spec.gone (s : Spec K V E) (gone : List ℕ) : Op K V E → List ℕ
  | .build (some j) _ => if ∃ d, s.dicts[j]? = some d ∧ d ≠ empty then j :: gone else gone
  | .update _ j => if s.dicts[j]? = some empty then j :: gone else gone
  | _ => gone

/-- the dictionary an instruction uses -/
def Op.uses : Op K V E → Option ℕ
  | .write j _ _ => some j
  | .build j _ => j
  | .update _ j => some j
  | _ => none

/-- no dictionary is used again after it was handed over -/
def Careful (c : Cls K V E R) : Spec K V E → List ℕ → List (Op K V E) → Prop
  | _, _, [] => True
  | s, g, op :: ops => (∀ j, op.uses = some j → j ∉ g) ∧ Careful c (s.step c op).1 (s.gone g op) ops

/-- the dictionaries handed over in the end -/
noncomputable def Spec.goneAll (c : Cls K V E R) : Spec K V E → List ℕ → List (Op K V E) → List ℕ
  | _, g, [] => g
  | s, g, op :: ops => Spec.goneAll c (s.step c op).1 (s.gone g op) ops

/-! ## The relation between the two -/

structure Sim (c : Cls K V E R) (w : World K V E R) (s : Spec K V E) (g : List ℕ) : Prop where
  held : w.held.length = s.dicts.length
  bound : ∀ j l : ℕ, w.held[j]? = some l → l < w.heap.length
  inj : ∀ j j' l : ℕ, w.held[j]? = some l → w.held[j']? = some l → j = j'
  mine : ∀ j l : ℕ, j ∉ g → w.held[j]? = some l → s.dicts[j]? = some (w.at l)
  objs : w.objs.length = s.objs.length
  obj : ∀ (i : ℕ) (o : Obj E R), w.objs[i]? = some o → o.loc < w.heap.length ∧ s.objs[i]? = some (w.at o.loc, o.other) ∧
    ∀ r, o.memo = some r → r = c.quantity (w.at o.loc) o.other ∧ merge (w.at o.loc) (c.extra o.other) = w.at o.loc
  apart : ∀ (i i' : ℕ) (o o' : Obj E R), w.objs[i]? = some o → w.objs[i']? = some o' → o.loc = o'.loc → i = i'
  away : ∀ (i j : ℕ) (o : Obj E R) (l : ℕ), w.objs[i]? = some o → j ∉ g → w.held[j]? = some l → o.loc ≠ l

theorem merge_self (d : Dict K V) : merge d d = d := by
  funext k; unfold merge; cases d k <;> rfl

theorem merge_empty (d : Dict K V) : merge d empty = d := by
  funext k; rfl

theorem merge_assoc (a b c : Dict K V) : merge (merge a b) c = merge a (merge b c) := by
  funext k; unfold merge; cases c k <;> rfl

theorem merge_again (a b : Dict K V) : merge (merge a b) b = merge a b := by rw [merge_assoc, merge_self]

theorem getD_set (h : List (Dict K V)) (l l' : ℕ) (d : Dict K V) (b : l < h.length) :
    (h.set l d).getD l' empty = if l' = l then d else h.getD l' empty := by
  simp only [List.getD_eq_getElem?_getD, List.getElem?_set]
  by_cases g : l = l'
  · subst g; simp [b]
  · rw [if_neg g, if_neg (Ne.symm g)]

theorem getD_append (h : List (Dict K V)) (l : ℕ) (d : Dict K V) (b : l < h.length) :
    (h ++ [d]).getD l empty = h.getD l empty := by
  simp [List.getD_eq_getElem?_getD, List.getElem?_append_left b]

theorem append_get {α : Type} {h : List α} {a x : α} {j : ℕ} (e : (h ++ [a])[j]? = some x) :
    (h[j]? = some x) ∨ (j = h.length ∧ x = a) := by
  rcases lt_trichotomy j h.length with b | b | b
  · exact Or.inl (by rwa [List.getElem?_append_left b] at e)
  · subst b; right; simp at e; exact ⟨rfl, e.symm⟩
  · rw [List.getElem?_append_right b.le] at e
    have : j - h.length ≠ 0 := by omega
    obtain ⟨m, q⟩ := Nat.exists_eq_succ_of_ne_zero this
    rw [q] at e; simp at e

theorem get_lt {α : Type} {h : List α} {x : α} {j : ℕ} (e : h[j]? = some x) : j < h.length := by
  by_contra b; rw [List.getElem?_eq_none (by omega)] at e; cases e

theorem sim_start (c : Cls K V E R) : Sim c World.start ⟨[], []⟩ [] := by
  constructor <;> simp [World.start]

theorem sim_dict {c : Cls K V E R} {w : World K V E R} {s : Spec K V E} {g : List ℕ} (h : Sim c w s g)
    (d : Dict K V) : Sim c ⟨w.heap ++ [d], w.held ++ [w.heap.length], w.objs⟩ ⟨s.dicts ++ [d], s.objs⟩ g := by
  have at' : ∀ l, l < w.heap.length → (⟨w.heap ++ [d], w.held ++ [w.heap.length], w.objs⟩ : World K V E R).at l = w.at l :=
    fun l b => getD_append w.heap l d b
  refine ⟨by simp [h.held], ?_, ?_, ?_, h.objs, ?_, h.apart, ?_⟩
  · intro j l e
    rcases append_get e with e | ⟨-, rfl⟩
    · have := h.bound j l e; simp; omega
    · simp
  · intro j j' l e e'
    rcases append_get e with e | ⟨a, rfl⟩ <;> rcases append_get e' with e' | ⟨a', b⟩
    · exact h.inj j j' l e e'
    · have := h.bound j l e; omega
    · have := h.bound j' _ e'; omega
    · omega
  · intro j l n e
    rcases append_get e with e | ⟨a, rfl⟩
    · have b := h.bound j l e
      rw [at' l b, List.getElem?_append_left (by rw [← h.held]; exact get_lt e)]
      exact h.mine j l n e
    · rw [a, h.held]
      simp [World.at]
  · intro i o e
    obtain ⟨b, q, m⟩ := h.obj i o e
    refine ⟨by simp; omega, ?_⟩
    rw [at' _ b]; exact ⟨q, m⟩
  · intro i j o l e n e'
    rcases append_get e' with e' | ⟨a, rfl⟩
    · exact h.away i j o l e n e'
    · have := (h.obj i o e).1; omega

theorem sim_write {c : Cls K V E R} {w : World K V E R} {s : Spec K V E} {g : List ℕ} (h : Sim c w s g)
    (j : ℕ) (n : j ∉ g) (l : ℕ) (e : w.held[j]? = some l) (f : Dict K V → Dict K V) :
    Sim c { w with heap := w.heap.set l (f (w.at l)) } { s with dicts := s.dicts.modify j f } g := by
  have bl := h.bound j l e
  have at' : ∀ l', ({ w with heap := w.heap.set l (f (w.at l)) } : World K V E R).at l' = if l' = l then f (w.at l) else w.at l' :=
    fun l' => getD_set w.heap l l' _ bl
  refine ⟨by simp [h.held], ?_, h.inj, ?_, h.objs, ?_, h.apart, h.away⟩
  · intro j' l' e'; simpa using h.bound j' l' e'
  · intro j' l' n' e'
    rw [at']
    have q := h.mine j' l' n' e'
    by_cases t : j = j'
    · subst t
      have : l' = l := Option.some.inj (e'.symm.trans e)
      subst this
      rw [if_pos rfl]; simp [q]
    · have : l' ≠ l := fun u => t (h.inj j j' l e (u ▸ e'))
      rw [if_neg this]; simp [q, t]
  · intro i o e'
    obtain ⟨b, q, m⟩ := h.obj i o e'
    rw [at', if_neg (h.away i j o l e' n e)]
    exact ⟨by simpa using b, q, m⟩

/-- a new object at a place nobody else knows -/
theorem sim_build {c : Cls K V E R} {w : World K V E R} {s : Spec K V E} {g : List ℕ} (h : Sim c w s g) (l : ℕ) (e : E)
    (b : l < w.heap.length) (a : ∀ (i : ℕ) (o : Obj E R), w.objs[i]? = some o → o.loc ≠ l)
    (f : ∀ j : ℕ, j ∉ g → w.held[j]? ≠ some l) :
    Sim c { w with objs := w.objs ++ [⟨l, e, none⟩] } { s with objs := s.objs ++ [(w.at l, e)] } g := by
  refine ⟨h.held, h.bound, h.inj, h.mine, by simp [h.objs], ?_, ?_, ?_⟩
  · intro i o t
    rcases append_get t with t | ⟨u, rfl⟩
    · obtain ⟨x, y, z⟩ := h.obj i o t
      refine ⟨x, ?_, z⟩
      show (s.objs ++ [_])[i]? = _
      rw [List.getElem?_append_left (get_lt y)]; exact y
    · refine ⟨b, ?_, by simp⟩
      rw [u, h.objs]; simp [World.at]
  · intro i i' o o' t t' u
    rcases append_get t with t | ⟨x, rfl⟩ <;> rcases append_get t' with t' | ⟨x', rfl⟩
    · exact h.apart i i' o o' t t' u
    · exact absurd u (a i o t)
    · exact absurd u.symm (a i' o' t')
    · omega
  · intro i j o l' t n u
    rcases append_get t with t | ⟨x, rfl⟩
    · exact h.away i j o l' t n u
    · intro v; dsimp only at v; exact f j n (v ▸ u)

theorem sim_more {c : Cls K V E R} {w : World K V E R} {s : Spec K V E} {g : List ℕ} (h : Sim c w s g) (d : Dict K V) :
    Sim c { w with heap := w.heap ++ [d] } s g := by
  have at' : ∀ l, l < w.heap.length → ({ w with heap := w.heap ++ [d] } : World K V E R).at l = w.at l :=
    fun l b => getD_append w.heap l d b
  refine ⟨h.held, ?_, h.inj, ?_, h.objs, ?_, h.apart, h.away⟩
  · intro j l e; have := h.bound j l e; simp; omega
  · intro j l n e; rw [at' l (h.bound j l e)]; exact h.mine j l n e
  · intro i o e
    obtain ⟨b, q, m⟩ := h.obj i o e
    refine ⟨by simp; omega, ?_⟩
    rw [at' _ b]; exact ⟨q, m⟩

theorem sim_gone {c : Cls K V E R} {w : World K V E R} {s : Spec K V E} {g : List ℕ} (h : Sim c w s g) (j : ℕ) : Sim c w s (j :: g) :=
  ⟨h.held, h.bound, h.inj, fun j' l n => h.mine j' l fun t => n (List.mem_cons_of_mem _ t), h.objs, h.obj, h.apart,
    fun i j' o l e n => h.away i j' o l e fun t => n (List.mem_cons_of_mem _ t)⟩

/-- an object changes: its dictionary is written to at its place -/
theorem sim_set {c : Cls K V E R} {w : World K V E R} {s : Spec K V E} {g : List ℕ} (h : Sim c w s g) (i : ℕ) (o : Obj E R)
    (e : w.objs[i]? = some o) (d : Dict K V) (x : E) (m : Option R)
    (hm : ∀ r, m = some r → r = c.quantity d x ∧ merge d (c.extra x) = d) (f : Dict K V × E → Dict K V × E)
    (hf : f (w.at o.loc, o.other) = (d, x)) :
    Sim c ⟨w.heap.set o.loc d, w.held, w.objs.set i ⟨o.loc, x, m⟩⟩ { s with objs := s.objs.modify i f } g := by
  obtain ⟨bl, q, -⟩ := h.obj i o e
  have at' : ∀ l', (⟨w.heap.set o.loc d, w.held, w.objs.set i ⟨o.loc, x, m⟩⟩ : World K V E R).at l' =
      if l' = o.loc then d else w.at l' := fun l' => getD_set w.heap o.loc l' _ bl
  have get : ∀ i' o', (w.objs.set i ⟨o.loc, x, m⟩)[i']? = some o' → (i' = i ∧ o' = ⟨o.loc, x, m⟩) ∨ (i' ≠ i ∧ w.objs[i']? = some o') := by
    intro i' o' t
    by_cases u : i = i'
    · subst u
      rw [List.getElem?_set_self (get_lt e)] at t
      exact Or.inl ⟨rfl, (Option.some.inj t).symm⟩
    · rw [List.getElem?_set_ne u] at t
      exact Or.inr ⟨Ne.symm u, t⟩
  refine ⟨h.held, ?_, h.inj, ?_, by simp [h.objs], ?_, ?_, ?_⟩
  · intro j l t; simpa using h.bound j l t
  · intro j l n t
    rw [at', if_neg (Ne.symm (h.away i j o l e n t))]; exact h.mine j l n t
  · intro i' o' t
    rw [at']
    rcases get i' o' t with ⟨rfl, rfl⟩ | ⟨u, t⟩
    · refine ⟨by simpa using bl, ?_, ?_⟩
      · simp [q, hf]
      · simpa using hm
    · obtain ⟨b, q', m'⟩ := h.obj i' o' t
      rw [if_neg fun v => u (h.apart i' i o' o t e v)]
      refine ⟨by simpa using b, ?_, m'⟩
      simp [q', Ne.symm u]
  · intro i₁ i₂ o₁ o₂ t₁ t₂ u
    rcases get i₁ o₁ t₁ with ⟨rfl, rfl⟩ | ⟨-, z₁⟩ <;> rcases get i₂ o₂ t₂ with ⟨rfl, rfl⟩ | ⟨-, z₂⟩
    · rfl
    · exact h.apart _ i₂ o o₂ e z₂ u
    · exact h.apart i₁ _ o₁ o z₁ e u
    · exact h.apart i₁ i₂ o₁ o₂ z₁ z₂ u
  · intro i' j o' l t n u
    rcases get i' o' t with ⟨rfl, rfl⟩ | ⟨-, t⟩
    · exact h.away _ j o l e n u
    · exact h.away i' j o' l t n u

/-- an object takes over an empty dictionary -/
theorem sim_take {c : Cls K V E R} {w : World K V E R} {s : Spec K V E} {g : List ℕ} (h : Sim c w s g) (i : ℕ) (o : Obj E R)
    (e : w.objs[i]? = some o) (j l : ℕ) (n : j ∉ g) (u : w.held[j]? = some l) (f : Dict K V × E → Dict K V × E)
    (hf : f (w.at o.loc, o.other) = (w.at l, o.other)) :
    Sim c { w with objs := w.objs.set i { o with loc := l, memo := none } } { s with objs := s.objs.modify i f } (j :: g) := by
  obtain ⟨bl, q, -⟩ := h.obj i o e
  have get : ∀ i' o', (w.objs.set i { o with loc := l, memo := none })[i']? = some o' →
      (i' = i ∧ o' = { o with loc := l, memo := none }) ∨ (i' ≠ i ∧ w.objs[i']? = some o') := by
    intro i' o' t
    by_cases u : i = i'
    · subst u
      rw [List.getElem?_set_self (get_lt e)] at t
      exact Or.inl ⟨rfl, (Option.some.inj t).symm⟩
    · rw [List.getElem?_set_ne u] at t
      exact Or.inr ⟨Ne.symm u, t⟩
  refine ⟨h.held, h.bound, h.inj, fun j' l' n' => h.mine j' l' fun t => n' (List.mem_cons_of_mem _ t), by simp [h.objs], ?_, ?_, ?_⟩
  · intro i' o' t
    rcases get i' o' t with ⟨rfl, rfl⟩ | ⟨v, t⟩
    · refine ⟨h.bound j l u, ?_, by simp⟩
      simp [q, hf]; rfl
    · obtain ⟨b, q', m'⟩ := h.obj i' o' t
      refine ⟨b, ?_, m'⟩
      show (s.objs.modify i f)[i']? = _
      simp [q', Ne.symm v]; rfl
  · intro i₁ i₂ o₁ o₂ t₁ t₂ v
    rcases get i₁ o₁ t₁ with ⟨rfl, rfl⟩ | ⟨-, z₁⟩ <;> rcases get i₂ o₂ t₂ with ⟨rfl, rfl⟩ | ⟨-, z₂⟩
    · rfl
    · exact absurd v.symm (h.away i₂ j o₂ l z₂ n u)
    · exact absurd v (h.away i₁ j o₁ l z₁ n u)
    · exact h.apart i₁ i₂ o₁ o₂ z₁ z₂ v
  · intro i' j' o' l' t n' u'
    rcases get i' o' t with ⟨rfl, rfl⟩ | ⟨-, t⟩
    · intro v
      dsimp only at v
      exact n' (by rw [h.inj j j' l u (v ▸ u')]; exact List.mem_cons_self)
    · exact h.away i' j' o' l' t (fun t => n' (List.mem_cons_of_mem _ t)) u'

theorem modify_none {α : Type} {h : List α} {f : α → α} {i : ℕ} (e : h[i]? = none) : h.modify i f = h := by
  rw [List.getElem?_eq_none_iff] at e
  exact List.modify_eq_self e

theorem modify_id {α : Type} {h : List α} {f : α → α} {i : ℕ} (x : α) (e : h[i]? = some x) (g : f x = x) : h.modify i f = h := by
  apply List.ext_getElem?
  intro j
  rw [List.getElem?_modify]
  by_cases t : i = j
  · subst t; simp [e, g]
  · simp [t]

theorem sim_none {α β : Type} {a : List α} {b : List β} (h : a.length = b.length) {i : ℕ} (e : a[i]? = none) : b[i]? = none := by
  rw [List.getElem?_eq_none_iff] at e ⊢; omega

theorem sim_step {c : Cls K V E R} {w : World K V E R} {s : Spec K V E} {g : List ℕ} (h : Sim c w s g)
    (op : Op K V E) (n : ∀ j, op.uses = some j → j ∉ g) :
    Sim c (step c w op).1 (s.step c op).1 (s.gone g op) ∧ (step c w op).2 = (s.step c op).2 := by
  cases op with
  | dict d => exact ⟨sim_dict h d, rfl⟩
  | write j k v =>
    have n := n j rfl
    unfold step Spec.step
    dsimp only
    cases e : w.held[j]? with
    | none => 
      dsimp only
      rw [modify_none (sim_none h.held e)]
      exact ⟨h, rfl⟩
    | some l => exact ⟨sim_write h j n l e fun d => DictParams.write d k v, rfl⟩
  | build j x =>
    unfold step
    dsimp only
    refine ⟨?_, rfl⟩
    have fresh : Sim c ⟨w.heap ++ [empty], w.held, w.objs ++ [⟨w.heap.length, x, none⟩]⟩ { s with objs := s.objs ++ [(empty, x)] } g := by
      have := sim_build (sim_more h empty) w.heap.length x (by simp) (fun i o t u => by have := (h.obj i o t).1; omega)
        (fun j _ t => by have := h.bound j _ t; omega)
      simpa [World.at] using this
    unfold World.build Spec.step
    dsimp only
    cases j with
    | none => exact fresh
    | some j =>
      have n := n j rfl
      unfold Spec.gone
      simp only [Option.bind_some]
      cases e : w.held[j]? with
      | none =>
        rw [sim_none h.held e, if_neg (by simp)]
        exact fresh
      | some l =>
        have q := h.mine j l n e
        rw [q]
        dsimp only
        by_cases t : w.at l = empty
        · rw [if_pos t, if_neg (by simp [t]), t]; exact fresh
        · rw [if_neg t, if_pos ⟨_, rfl, t⟩]
          refine sim_build (sim_gone h j) l x (h.bound j l e) (fun i o u => h.away i j o l u n e) fun j' n' u => n' ?_
          rw [h.inj j j' l e u]; exact List.mem_cons_self
  | update i j =>
    have n := n j rfl
    unfold step Spec.step Spec.gone
    dsimp only
    cases e : w.held[j]? with
    | none =>
      rw [sim_none h.held e, if_neg (by simp)]
      cases w.objs[i]? <;> exact ⟨h, rfl⟩
    | some l =>
      have q := h.mine j l n e
      rw [q]
      dsimp only
      have iff : (∀ k, w.at l k = none) ↔ w.at l = empty := ⟨fun t => funext t, fun t k => by rw [t]; rfl⟩
      cases u : w.objs[i]? with
      | none =>
        dsimp only
        rw [modify_none (sim_none h.objs u)]
        split_ifs
        · exact ⟨sim_gone h j, rfl⟩
        · exact ⟨h, rfl⟩
      | some o =>
        dsimp only
        refine ⟨?_, rfl⟩
        obtain ⟨b, y, m⟩ := h.obj i o u
        unfold World.update
        by_cases t : w.at l = w.at o.loc
        · rw [if_pos t, modify_id _ y]
          · split_ifs
            · exact sim_gone h j
            · exact h
          · rw [t]
            split_ifs
            · rfl
            · exact Prod.ext (merge_self _) rfl
        · rw [if_neg t]
          by_cases v : w.at l = empty
          · rw [if_pos v, if_pos (by rw [v])]
            refine sim_take h i o u j l n e _ ?_
            rw [if_pos (iff.2 v)]
          · rw [if_neg v, if_neg fun z => v (Option.some.inj z)]
            refine sim_set h i o u _ o.other none (by simp) _ ?_
            dsimp only
            rw [if_neg fun z => v (iff.1 z)]; rfl
  | other i x =>
    unfold step Spec.step Spec.gone
    dsimp only
    cases u : w.objs[i]? with
    | none =>
      dsimp only
      rw [modify_none (sim_none h.objs u)]; exact ⟨h, rfl⟩
    | some o =>
      dsimp only
      obtain ⟨b, y, m⟩ := h.obj i o u
      refine ⟨?_, rfl⟩
      by_cases t : x = o.other
      · rw [if_pos t, modify_id _ y (by rw [t])]; exact h
      · rw [if_neg t]
        have := sim_set h i o u (w.at o.loc) x none (by simp) (fun z => (z.1, x)) rfl
        have id : w.heap.set o.loc (w.at o.loc) = w.heap := by
          unfold World.at
          rw [List.getD_eq_getElem _ _ b]; exact List.set_getElem_self b
        rw [id] at this
        exact this
  | read i =>
    unfold step Spec.step Spec.gone
    dsimp only
    cases u : w.objs[i]? with
    | none =>
      dsimp only
      rw [modify_none (sim_none h.objs u), sim_none h.objs u]; exact ⟨h, rfl⟩
    | some o =>
      dsimp only
      obtain ⟨b, y, m⟩ := h.obj i o u
      rw [y]
      cases z : o.memo with
      | some r =>
        obtain ⟨m₁, m₂⟩ := m r z
        dsimp only
        rw [modify_id _ y (by dsimp only; rw [m₂])]
        exact ⟨h, by simp [m₂, m₁]⟩
      | none =>
        refine ⟨sim_set h i o u _ o.other _ (fun r t => ⟨(Option.some.inj t).symm, merge_again _ _⟩) _ rfl, rfl⟩

theorem sim_run {c : Cls K V E R} (ops : List (Op K V E)) : ∀ {w : World K V E R} {s : Spec K V E} {g : List ℕ},
    Sim c w s g → Careful c s g ops →
    Sim c (run c w ops).1 (s.run c ops).1 (s.goneAll c g ops) ∧ (run c w ops).2 = (s.run c ops).2 := by
  induction ops with
  | nil => exact fun h _ => ⟨h, rfl⟩
  | cons op ops ih =>
    intro w s g h ⟨n, k⟩
    obtain ⟨a, b⟩ := sim_step h op n
    obtain ⟨x, y⟩ := ih a k
    refine ⟨x, ?_⟩
    show _ :: _ = _ :: _
    rw [b, y]

/-! ## The theorems -/

/-- In every program that does not use a dictionary again after handing it over, everything that is read is what the caller has in mind. -/
theorem C146_own_dictionaries (c : Cls K V E R) (ops : List (Op K V E)) (h : Careful c ⟨[], []⟩ [] ops) :
    (run c World.start ops).2 = (Spec.run c ⟨[], []⟩ ops).2 :=
  (sim_run ops (sim_start c) h).2

/-- And the dictionaries that were not handed over are as the caller wrote them. -/
theorem C146_dictionaries_untouched (c : Cls K V E R) (ops : List (Op K V E)) (h : Careful c ⟨[], []⟩ [] ops)
    (j l : ℕ) (n : j ∉ Spec.goneAll c ⟨[], []⟩ [] ops) (e : (run c World.start ops).1.held[j]? = some l) :
    (Spec.run c ⟨[], []⟩ ops).1.dicts[j]? = some ((run c World.start ops).1.at l) :=
  (sim_run ops (sim_start c) h).1.mine j l n e

/-- the value of an entry after some updates: the last one given since the parameter was last set to an empty dictionary -/
def lastEntry (start : Dict K V) (ds : List (Dict K V)) (k : K) (v : Option V) : Prop :=
  (∃ a d b, ds = a ++ d :: b ∧ (∀ x ∈ d :: b, ∃ k', x k' ≠ none) ∧ (∀ x ∈ b, x k = none) ∧ d k = v ∧ v ≠ none) ∨
  (∃ a d b, ds = a ++ d :: b ∧ d = empty ∧ (∀ x ∈ b, x k = none) ∧ v = none) ∨
  ((∀ x ∈ ds, x ≠ empty ∧ x k = none) ∧ v = start k)

theorem lastEntry_snoc (start d : Dict K V) (ds : List (Dict K V)) (k : K) (v : Option V) (h : lastEntry start (ds ++ [d]) k v) :
    (d = empty ∧ v = none) ∨ (d ≠ empty ∧ d k ≠ none ∧ v = d k) ∨ (d ≠ empty ∧ d k = none ∧ lastEntry start ds k v) := by
  have split : ∀ (a b : List (Dict K V)) (x : Dict K V), ds ++ [d] = a ++ x :: b →
      (a = ds ∧ x = d ∧ b = []) ∨ ∃ b', b = b' ++ [d] ∧ ds = a ++ x :: b' := by
    intro a b x e
    rcases List.eq_nil_or_concat b with rfl | ⟨b', y, rfl⟩
    · have := List.append_inj' e rfl
      exact Or.inl ⟨this.1.symm, (List.cons.inj this.2).1.symm, rfl⟩
    · right
      rw [show a ++ x :: b'.concat y = (a ++ x :: b') ++ [y] by simp] at e
      have := List.append_inj' e rfl
      exact ⟨b', by rw [List.concat_eq_append, (List.cons.inj this.2).1], this.1⟩
  have ne : (∃ k', d k' ≠ none) → d ≠ empty := fun ⟨k', t⟩ u => t (by rw [u]; rfl)
  rcases h with ⟨a, x, b, e, n, l, q, r⟩ | ⟨a, x, b, e, n, l, q⟩ | ⟨e, q⟩
  · rcases split a b x e with ⟨rfl, rfl, rfl⟩ | ⟨b', rfl, u⟩
    · exact Or.inr (Or.inl ⟨ne (n x (by simp)), by rw [q]; exact r, q.symm⟩)
    · refine Or.inr (Or.inr ⟨ne (n d (by simp)), l d (by simp), Or.inl ⟨a, x, b', u, ?_, fun y t => l y (by simp [t]), q, r⟩⟩)
      intro y t
      refine n y ?_
      rcases List.mem_cons.1 t with rfl | t <;> simp [*]
  · rcases split a b x e with ⟨rfl, rfl, rfl⟩ | ⟨b', rfl, u⟩
    · exact Or.inl ⟨n, q⟩
    · by_cases t : d = empty
      · exact Or.inl ⟨t, q⟩
      · exact Or.inr (Or.inr ⟨t, l d (by simp), Or.inr (Or.inl ⟨a, x, b', u, n, fun y t => l y (by simp [t]), q⟩)⟩)
  · exact Or.inr (Or.inr ⟨(e d (by simp)).1, (e d (by simp)).2, Or.inr (Or.inr ⟨fun x t => e x (by simp [t]), q⟩)⟩)

/-- there is one such value -/
theorem lastEntry_unique (start : Dict K V) (ds : List (Dict K V)) (k : K) (v v' : Option V) (h : lastEntry start ds k v)
    (h' : lastEntry start ds k v') : v = v' := by
  induction ds using List.reverseRecOn with
  | nil =>
    have : ∀ v, lastEntry start [] k v → v = start k := by
      rintro v (⟨a, d, b, e, -⟩ | ⟨a, d, b, e, -⟩ | ⟨-, e⟩)
      · simp at e
      · simp at e
      · exact e
    rw [this v h, this v' h']
  | append_singleton ds d ih =>
    rcases lastEntry_snoc _ _ _ _ _ h with ⟨a, b⟩ | ⟨a, b, e⟩ | ⟨a, b, e⟩ <;>
      rcases lastEntry_snoc _ _ _ _ _ h' with ⟨a', b'⟩ | ⟨a', b', e'⟩ | ⟨a', b', e'⟩
    · rw [b, b']
    · exact absurd a a'
    · exact absurd a a'
    · exact absurd a' a
    · rw [e, e']
    · exact absurd b' b
    · exact absurd a' a
    · exact absurd b b'
    · exact ih e e'

/-- make dictionaries and give them to `update` of the first object, one by one -/
def updates (first : ℕ) : List (Dict K V) → List (Op K V E)
  | [] => []
  | d :: ds => .dict d :: .update 0 first :: updates (first + 1) ds

theorem spec_updates (c : Cls K V E R) (ds : List (Dict K V)) : ∀ (s : Spec K V E) (d : Dict K V) (e : E) (g : List ℕ),
    s.objs = [(d, e)] → (∀ j ∈ g, j < s.dicts.length) →
    Careful c s g (updates s.dicts.length ds) ∧
    ∃ d', (s.run c (updates s.dicts.length ds)).1.objs = [(d', e)] ∧ ∀ k, lastEntry d ds k (d' k) := by
  induction ds with
  | nil =>
    intro s d e g h _
    exact ⟨trivial, d, h, fun k => Or.inr (Or.inr ⟨by simp, rfl⟩)⟩
  | cons n ds ih =>
    intro s d e g h hg
    have len : (⟨s.dicts ++ [n], s.objs⟩ : Spec K V E).dicts.length = s.dicts.length + 1 := by simp
    have get : (s.dicts ++ [n])[s.dicts.length]? = some n := by simp
    classical
    let d₁ : Dict K V := if ∀ k, n k = none then n else fun k => (n k).orElse fun _ => d k
    have two : (Spec.step c (⟨s.dicts ++ [n], s.objs⟩ : Spec K V E) (.update 0 s.dicts.length)).1 = ⟨s.dicts ++ [n], [(d₁, e)]⟩ := by
      unfold Spec.step
      dsimp only
      rw [get, h]; rfl
    have hg₁ : ∀ j ∈ Spec.gone (⟨s.dicts ++ [n], s.objs⟩ : Spec K V E) g (.update 0 s.dicts.length),
        j < (⟨s.dicts ++ [n], [(d₁, e)]⟩ : Spec K V E).dicts.length := by
      intro j t
      rw [show (⟨s.dicts ++ [n], [(d₁, e)]⟩ : Spec K V E).dicts.length = s.dicts.length + 1 by simp]
      unfold Spec.gone at t
      dsimp only at t
      split_ifs at t
      · rcases List.mem_cons.1 t with rfl | t
        · omega
        · have := hg j t; omega
      · have := hg j t; omega
    have := ih ⟨s.dicts ++ [n], [(d₁, e)]⟩ d₁ e _ rfl hg₁
    rw [show (⟨s.dicts ++ [n], [(d₁, e)]⟩ : Spec K V E).dicts.length = s.dicts.length + 1 by simp] at this
    obtain ⟨car, d', fin, last⟩ := this
    refine ⟨⟨by simp [Op.uses], ?_, ?_⟩, d', ?_, ?_⟩
    · intro j t
      obtain rfl : s.dicts.length = j := Option.some.inj t
      exact fun u => absurd (hg _ u) (lt_irrefl _)
    · show Careful c (Spec.step c (⟨s.dicts ++ [n], s.objs⟩ : Spec K V E) (.update 0 s.dicts.length)).1 _ _
      rw [two]; exact car
    · show (Spec.run c (Spec.step c (⟨s.dicts ++ [n], s.objs⟩ : Spec K V E) (.update 0 s.dicts.length)).1 _).1.objs = _
      rw [two]; exact fin
    · intro k
      rcases last k with ⟨a, x, b, q, r⟩ | ⟨a, x, b, q, r⟩ | ⟨q, r⟩
      · exact Or.inl ⟨n :: a, x, b, by rw [q]; rfl, r⟩
      · exact Or.inr (Or.inl ⟨n :: a, x, b, by rw [q]; rfl, r⟩)
      · by_cases t : ∀ k, n k = none
        · refine Or.inr (Or.inl ⟨[], n, ds, rfl, funext t, fun x u => (q x u).2, ?_⟩)
          rw [r]
          show d₁ k = none
          have : d₁ = n := if_pos t
          rw [this, t k]
        · have d₁n : d₁ k = (n k).orElse fun _ => d k := congrFun (if_neg t) k
          have ne : ∃ k', n k' ≠ none := by push Not at t; exact t
          cases u : n k with
          | none =>
            rw [u] at d₁n
            refine Or.inr (Or.inr ⟨?_, by rw [r, d₁n]; rfl⟩)
            rintro x y
            rcases List.mem_cons.1 y with rfl | y
            · exact ⟨fun z => by obtain ⟨k', z'⟩ := ne; exact z' (by rw [z]; rfl), u⟩
            · exact q x y
          | some v =>
            rw [u] at d₁n
            refine Or.inl ⟨[], n, ds, rfl, ?_, fun x y => (q x y).2, by rw [u, r, d₁n]; rfl, by rw [r, d₁n]; simp⟩
            intro x y
            rcases List.mem_cons.1 y with rfl | y
            · exact ne
            · by_contra z; push Not at z; exact (q x y).1 (funext z)

theorem run_append (c : Cls K V E R) (a b : List (Op K V E)) : ∀ w : World K V E R,
    run c w (a ++ b) = ((run c (run c w a).1 b).1, (run c w a).2 ++ (run c (run c w a).1 b).2) := by
  induction a with
  | nil => intro w; rfl
  | cons op a ih => intro w; simp [run, ih]

theorem spec_run_append (c : Cls K V E R) (a b : List (Op K V E)) : ∀ s : Spec K V E,
    s.run c (a ++ b) = (((s.run c a).1.run c b).1, (s.run c a).2 ++ ((s.run c a).1.run c b).2) := by
  induction a with
  | nil => intro s; rfl
  | cons op a ih => intro s; simp [Spec.run, ih]

theorem careful_append (c : Cls K V E R) (a b : List (Op K V E)) : ∀ (s : Spec K V E) (g : List ℕ),
    Careful c s g (a ++ b) ↔ Careful c s g a ∧ Careful c (s.run c a).1 (s.goneAll c g a) b := by
  induction a with
  | nil => intro s g; simp [Careful, Spec.run, Spec.goneAll]
  | cons op a ih => intro s g; simp [Careful, Spec.run, Spec.goneAll, ih, and_assoc]

/-- The pipeline's way (`Spectra()` once, then `update` with new dictionaries): an object built without a dictionary uses, for every
entry, the last value given since the last empty dictionary.  Entries that are left out stay. -/
theorem C146_last_entry (c : Cls K V E R) (e : E) (ds : List (Dict K V)) :
    ∃ d : Dict K V, (∀ k, lastEntry empty ds k (d k)) ∧
      (run c World.start ([.build none e] ++ updates 0 ds ++ [.read 0])).2.getLast? =
        some (some (c.quantity (merge d (c.extra e)) e)) := by
  have base : (Spec.run c (⟨[], []⟩ : Spec K V E) [.build none e]).1 = ⟨[], [(empty, e)]⟩ := rfl
  obtain ⟨car, d, fin, last⟩ := spec_updates c ds ⟨[], [(empty, e)]⟩ empty e [] rfl (by simp)
  refine ⟨d, last, ?_⟩
  rw [C146_own_dictionaries]
  · rw [spec_run_append, spec_run_append, base]
    dsimp only
    rw [List.getLast?_append]
    have : (Spec.run c (Spec.run c (⟨[], [(empty, e)]⟩ : Spec K V E) (updates 0 ds)).1 [.read 0]).2 =
        [some (c.quantity (merge d (c.extra e)) e)] := by
      have one : ∀ s : Spec K V E, s.objs = [(d, e)] → (s.run c [.read 0]).2 = [some (c.quantity (merge d (c.extra e)) e)] := by
        intro s t
        simp only [Spec.run, Spec.step, t]; rfl
      exact one _ fin
    rw [this]; rfl
  · rw [careful_append, careful_append]
    refine ⟨⟨⟨by simp [Op.uses], trivial⟩, car⟩, ?_, trivial⟩
    simp [Op.uses]

/-! ## What happens otherwise -/

/-- A dictionary that was given to the constructor is the object's own.  Once the quantity was read, changing the dictionary and giving it to
`update` again, any number of times and in any order, has no effect: everything that is read is the first value. -/
theorem C146_rewritten_dictionary_ignored (c : Cls K V E R) (w : World K V E R) (j l : ℕ) (e : E)
    (hl : w.held[j]? = some l) (ne : w.at l ≠ empty) (ops : List (Op K V E))
    (ho : ∀ op ∈ ops, op = .read w.objs.length ∨ op = .update w.objs.length j ∨ ∃ k v, op = .write j k v) :
    (run c w (.build (some j) e :: .read w.objs.length :: ops)).2 =
      none :: some (c.quantity (merge (w.at l) (c.extra e)) e) :: ops.map fun
        | .read _ => some (c.quantity (merge (w.at l) (c.extra e)) e)
        | _ => none := by
  generalize q : c.quantity (merge (w.at l) (c.extra e)) e = r
  have inv : ∀ ops : List (Op K V E), (∀ op ∈ ops, op = .read w.objs.length ∨ op = .update w.objs.length j ∨ ∃ k v, op = .write j k v) →
      ∀ u : World K V E R, u.held[j]? = some l → u.objs[w.objs.length]? = some ⟨l, e, some r⟩ →
      (run c u ops).2 = ops.map fun
        | .read _ => some r
        | _ => none := by
    intro ops
    induction ops with
    | nil => intro _ u _ _; rfl
    | cons op ops ih =>
      intro ho u hu hob
      have rest := ih (fun op t => ho op (List.mem_cons_of_mem _ t))
      rcases ho op List.mem_cons_self with rfl | rfl | ⟨k, v, rfl⟩
      · have st : step c u (.read w.objs.length) = (u, some r) := by unfold step; dsimp only; rw [hob]
        rw [run, st, rest u hu hob]; rfl
      · have st : step c u (.update w.objs.length j) = (u, none) := by
          unfold step; dsimp only; rw [hob, hu]; dsimp only; unfold World.update; rw [if_pos rfl]
        rw [run, st, rest u hu hob]; rfl
      · have st : step c u (.write j k v) = ({ u with heap := u.heap.set l (DictParams.write (u.at l) k v) }, none) := by
          unfold step; dsimp only; rw [hu]
        have := rest { u with heap := u.heap.set l (DictParams.write (u.at l) k v) } hu hob
        rw [run, st, this]; rfl
  have one : step c w (.build (some j) e) = ({ w with objs := w.objs ++ [⟨l, e, none⟩] }, none) := by
    unfold step World.build; simp [hl, ne]
  have two : step c { w with objs := w.objs ++ [⟨l, e, none⟩] } (.read w.objs.length) =
      (⟨w.heap.set l (merge (w.at l) (c.extra e)), w.held, w.objs ++ [⟨l, e, some r⟩]⟩, some r) := by
    unfold step
    dsimp only
    rw [show (w.objs ++ [(⟨l, e, none⟩ : Obj E R)])[w.objs.length]? = some ⟨l, e, none⟩ by simp]
    dsimp only
    rw [← q]
    refine Prod.ext ?_ rfl
    simp [World.at]
  have := inv ops ho ⟨w.heap.set l (merge (w.at l) (c.extra e)), w.held, w.objs ++ [⟨l, e, some r⟩]⟩ hl (by simp)
  rw [run, run, one, two, this]

/-- Two objects built from the same dictionary: an `update` of the first changes the caller's dictionary, and the second object with it if
it has not been computed yet; if it has, its value stays until one of its other parameters changes. -/
theorem C146_update_leaks (c : Cls K V E R) (d n : Dict K V) (hd : d ≠ empty) (hn : n ≠ empty) (hdn : n ≠ d) (e₁ e₂ e₃ : E) (ne : e₃ ≠ e₂) :
    let made : List (Op K V E) := [.dict d, .dict n, .build (some 0) e₁, .build (some 0) e₂]
    (∀ l, (run c World.start (made ++ [.update 0 1])).1.held[0]? = some l →
      (run c World.start (made ++ [.update 0 1])).1.at l = merge d n) ∧
    (run c World.start (made ++ [.update 0 1, .read 1])).2.getLast? = some (some (c.quantity (merge (merge d n) (c.extra e₂)) e₂)) ∧
    (n ≠ merge d (c.extra e₂) →
      (run c World.start (made ++ [.read 1, .update 0 1, .read 1, .other 1 e₃, .read 1])).2 =
        [none, none, none, none, some (c.quantity (merge d (c.extra e₂)) e₂), none, some (c.quantity (merge d (c.extra e₂)) e₂), none,
          some (c.quantity (merge (merge (merge d (c.extra e₂)) n) (c.extra e₃)) e₃)]) := by
  refine ⟨?_, ?_, fun h => ?_⟩
  · intro l t
    simp [run, step, World.start, World.build, World.at, World.update, hd, hn, hdn] at t ⊢
    subst t; simp
  · simp [run, step, World.start, World.build, World.at, World.update, hd, hn, hdn]
  · simp [run, step, World.start, World.build, World.at, World.update, hd, hn, h, ne]

/-- An empty dictionary given to `update` clears the parameter and becomes the object's own: what the caller writes into it later is used at
the next computation although the object was never told. -/
theorem C146_empty_update (c : Cls K V E R) (d : Dict K V) (hd : d ≠ empty) (e : E) (k : K) (v : V) :
    let made : List (Op K V E) := [.dict d, .build (some 0) e, .dict empty, .update 0 1]
    (run c World.start (made ++ [.read 0])).2.getLast? = some (some (c.quantity (c.extra e) e)) ∧
    (run c World.start (made ++ [.write 1 k (some v), .read 0])).2.getLast? =
      some (some (c.quantity (merge (write empty k (some v)) (c.extra e)) e)) ∧
    (∀ l, (run c World.start (made ++ [.read 0])).1.held[1]? = some l → (run c World.start (made ++ [.read 0])).1.at l = c.extra e) := by
  have m : ∀ x : Dict K V, merge empty x = x := fun x => by funext k; unfold merge empty; cases x k <;> rfl
  have hd' : empty ≠ d := hd.symm
  refine ⟨?_, ?_, ?_⟩
  · simp [run, step, World.start, World.build, World.at, World.update, hd, hd', m]
  · simp [run, step, World.start, World.build, World.at, World.update, hd, hd']
  · intro l t
    simp [run, step, World.start, World.build, World.at, World.update, hd, hd', m] at t ⊢
    subst t; simp

/-! ## The settings of the galaxy samples in the pipeline -/

open Verif.Hod Verif.Lib

/-- `hod_settings` of an earlier sample with the entries of a new one -/
def overlay (old new : Settings) : Settings where
  observablesFile := new.observablesFile.orElse fun _ => old.observablesFile
  obsMin := new.obsMin.orElse fun _ => old.obsMin
  obsMax := new.obsMax.orElse fun _ => old.obsMax
  zmin := new.zmin.orElse fun _ => old.zmin
  zmax := new.zmax.orElse fun _ => old.zmax
  nz := new.nz.orElse fun _ => old.nz
  nobs := new.nobs.orElse fun _ => old.nobs

/-- what `setup_hod_settings` writes (onepower_interface.py:102-128): a file and the number of observables, or no file and all ranges -/
inductive Written : Settings → Prop
  | file (f : String) (n : ℕ) : Written ⟨some (some f), none, none, none, none, none, some n⟩
  | ranges (a b c d : List ℝ) (k n : ℕ) : Written ⟨some none, some a, some b, some c, some d, some k, some n⟩

/-- Entries of an earlier sample that stay in the dictionary do not matter: the occupation model of the new sample is the one of its own
settings (errors included), whatever was there before. -/
theorem C146_leftovers_harmless (fs : String → Option (List Row)) (old new : Settings) (h : Written new) (i : Inputs) (p : CacciatoParams) :
    cacciato fs (overlay old new) i p = cacciato fs new i p := by
  cases h with
  | file f n =>
    have e : ∀ s : Settings, s.observablesFile = some (some f) → s.nobs = some n →
        cacciato fs s i p = cacciato fs ⟨some (some f), none, none, none, none, none, some n⟩ i p := by
      intro s a b
      have hd : data fs s = data fs ⟨some (some f), none, none, none, none, none, some n⟩ := by unfold data; rw [a]
      have hz : gridNz fs s = gridNz fs ⟨some (some f), none, none, none, none, none, some n⟩ := by
        unfold gridNz; rw [a, hd]; rfl
      have hr : gridZ fs s = gridZ fs ⟨some (some f), none, none, none, none, none, some n⟩ := by
        unfold gridZ; rw [a, hd]; rfl
      have hb : gridBins s = gridBins ⟨some (some f), none, none, none, none, none, some n⟩ := by
        unfold gridBins; rw [a]; rfl
      have hlo : logObsMin fs s = logObsMin fs ⟨some (some f), none, none, none, none, none, some n⟩ := by
        unfold logObsMin; rw [a, hd]; rfl
      have hhi : logObsMax fs s = logObsMax fs ⟨some (some f), none, none, none, none, none, some n⟩ := by
        unfold logObsMax; rw [a, hd]; rfl
      have hn : nobs s = nobs ⟨some (some f), none, none, none, none, none, some n⟩ := by unfold nobs; rw [b]
      have ho : gridObs fs s = gridObs fs ⟨some (some f), none, none, none, none, none, some n⟩ := by
        unfold gridObs; rw [hb, hz, hlo, hhi, hn]
      unfold cacciato; rw [hz, hr, ho, hn]
    exact e _ rfl rfl
  | ranges a b c d k n => rfl

/-- The new sample may not leave entries out: without them the ones of the earlier sample are used. -/
theorem C146_leftovers_used (old new : Settings) (h : new.obsMin = none) (hf : (overlay old new).observablesFile = some none) :
    gridBins (overlay old new) = (key old.obsMin).map List.length := by
  unfold gridBins overlay at *
  dsimp only at *
  rw [hf, h]
  cases old.obsMin <;> rfl

/-! ## Concrete cases -/

/-- a class with an entry that the code adds itself -/
def demo : Cls String ℕ ℕ ℕ where
  extra e := fun k => if k = "z_vec" then some e else none
  quantity d e := (d "a").getD 0 + 10 * (d "b").getD 0 + 100 * (d "z_vec").getD 0 + 1000 * e

/-- `{'a': x}` and `{'b': x}` -/
def one (n : String) (x : ℕ) : Dict String ℕ := fun k => if k = n then some x else none

theorem one_ne (n : String) (x : ℕ) : one n x ≠ empty := fun h => by simpa [one, empty] using congrFun h n

/-- a careful program: the pipeline's, with the caller's dictionary changed between the calls -/
example : Careful demo ⟨[], []⟩ [] [.dict (one "a" 1), .build none 2, .update 0 0, .read 0, .write 0 "a" (some 5), .update 0 0, .read 0] ∧
    (run demo World.start [.dict (one "a" 1), .build none 2, .update 0 0, .read 0, .write 0 "a" (some 5), .update 0 0, .read 0]).2 =
      [none, none, none, some 2201, none, none, some 2205] := by
  have car : Careful demo (⟨[], []⟩ : Spec String ℕ ℕ) []
      [.dict (one "a" 1), .build none 2, .update 0 0, .read 0, .write 0 "a" (some 5), .update 0 0, .read 0] := by
    have h₁ : one "a" 1 ≠ empty := one_ne "a" 1
    simp [Careful, Op.uses, Spec.gone, Spec.step, h₁]
  refine ⟨car, ?_⟩
  rw [C146_own_dictionaries _ _ car]
  have e₁ : ¬ ∀ k, one "a" 1 k = none := fun h => one_ne "a" 1 (funext h)
  have e₂ : ¬ ∀ k, (@ite _ (k = "a") (Classical.propDecidable _) (some 5) (one "a" 1 k)) = none := fun h => by simpa using h "a"
  simp only [Spec.run, Spec.step, List.nil_append, Option.bind_none, Option.getD_none, List.getElem?_cons_zero, List.modify_zero_cons,
    if_neg e₁, Option.map_some]
  rw [if_neg e₂]
  simp [demo, merge, one]

/-- the same dictionary given to the constructor: the change is not noticed -/
example : (run demo World.start [.dict (one "a" 1), .build (some 0) 2, .read 0, .write 0 "a" (some 5), .update 0 0, .read 0]).2 =
      [none, none, some 2201, none, none, some 2201] ∧
    ¬ Careful demo ⟨[], []⟩ [] [.dict (one "a" 1), .build (some 0) 2, .read 0, .write 0 "a" (some 5), .update 0 0, .read 0] := by
  constructor
  · have := C146_rewritten_dictionary_ignored demo (step demo World.start (.dict (one "a" 1))).1 0 0 2 rfl
      (one_ne "a" 1) [.write 0 "a" (some 5), .update 0 0, .read 0] (by simp [step, World.start])
    rw [run]
    refine congrArg (none :: ·) (this.trans ?_)
    simp [step, World.start, World.at, demo, merge, one]
  · have h₁ : one "a" 1 ≠ empty := one_ne "a" 1
    simp [Careful, Op.uses, Spec.gone, Spec.step, h₁]

/-- two objects from one dictionary -/
example : (run demo World.start [.dict (one "a" 1), .dict (one "b" 3), .build (some 0) 1, .build (some 0) 2, .update 0 1, .read 1]).2.getLast? =
    some (some 2231) := by
  have ne : one "b" 3 ≠ one "a" 1 := fun h => by simpa [one] using congrFun h "b"
  have := (C146_update_leaks demo (one "a" 1) (one "b" 3) (one_ne _ _) (one_ne _ _) ne 1 2 3 (by decide)).2.1
  refine this.trans ?_
  simp [demo, merge, one]

/-- and an entry left out stays -/
example : ∃ d : Dict String ℕ, d "a" = some 1 ∧ d "b" = some 4 ∧
    (run demo World.start ([.build none 2] ++ updates 0 [one "b" 3, one "a" 1, one "b" 4] ++ [.read 0])).2.getLast? =
      some (some (demo.quantity (merge d (demo.extra 2)) 2)) := by
  obtain ⟨d, h, r⟩ := C146_last_entry demo 2 [one "b" 3, one "a" 1, one "b" 4]
  refine ⟨d, ?_, ?_, r⟩
  · refine lastEntry_unique _ _ "a" _ _ (h "a") (Or.inl ⟨[one "b" 3], one "a" 1, [one "b" 4], rfl, ?_, by simp [one], by simp [one], by simp⟩)
    intro x t
    simp only [List.mem_cons, List.not_mem_nil, or_false] at t
    rcases t with rfl | rfl
    · exact ⟨"a", by simp [one]⟩
    · exact ⟨"b", by simp [one]⟩
  · refine lastEntry_unique _ _ "b" _ _ (h "b") (Or.inl ⟨[one "b" 3, one "a" 1], one "b" 4, [], rfl, ?_, by simp, by simp [one], by simp⟩)
    intro x t
    simp only [List.mem_cons, List.not_mem_nil, or_false] at t
    subst t
    exact ⟨"b", by simp [one]⟩

example : Written ⟨some none, some [9, 10], some [10, 11], some [0, 0], some [1, 1], some 15, some 100⟩ := .ranges ..

end Verif.DictParams
