import Verif.HeapReadScopProps
/-!
# Reading scops with the default registry in memory: theorems (C72)
-/

set_option linter.unusedSectionVars false

namespace Osl.Mem

open Osl.Ext

variable [Allocator] {c : Cfg} {e : Option Str} {n : Nat}

/-- The strings which stay allocated after the reading of a file, besides the scops (specification): see `closing_or_empty`. -/
def libTags (c : Cfg) (e : Option Str) (n : Nat) (s : Str) : List Str :=
  tagsFile c (libAt c e n) (tagsLost c e n) defaultRegistry (Util.get_precision c e) s

/-- C72: `osl_scop_read` allocates exactly the scops which it returns, besides the tags which are lost: the registry, the strings of the language and of the types, the
contents of the extensions, and all the buffers, are freed. -/
theorem lib_scop_read_memory {s : Str} {l : Scops (DataAt n)} (h : Scops.read c (libAt c e n) e defaultRegistry s = .ok l) :
    Triple emp (scopRead c e (sreadAt c e n) s) (fun p => libScopsAt c e n p l ∗ looseAt (libTags c e n s)) := by
  have hg : ∀ n, ∀ i ∈ defaultRegistry, (readAt c e n).1.good i.fns := by
    intro n
    rw [(readAt c e n).2]
    exact default_same
  cases n with
  | zero =>
    have := scop_read_memory (c := c) (T := libAt c e 0) (O' := libMem c e 0) (readAt c e 0).1 (hg 0) h
    rw [readAt_sread, readAt_tags] at this
    exact this
  | succ n =>
    have := scop_read_memory (c := c) (T := libAt c e (n + 1)) (O' := libMem c e (n + 1)) (readAt c e (n + 1)).1 (hg (n + 1)) h
    rw [readAt_sread, readAt_tags] at this
    exact this

/-- C72: what is read can be freed: `osl_scop_free` after `osl_scop_read` leaves nothing allocated but the tags which are lost. -/
theorem lib_scop_read_free_memory {s : Str} {l : Scops (DataAt n)} (h : Scops.read c (libAt c e n) e defaultRegistry s = .ok l) :
    Triple emp (do let p ← scopRead c e (sreadAt c e n) s; scopFree c (fnsAt c n) p) (fun _ => looseAt (libTags c e n s)) := by
  hstep (lib_scop_read_memory h)
  hlast (lib_scop_free_memory p l)
  hret

/-! ## Only empty and closing tags are lost -/

/-- An empty string, or one which begins with `/`. -/
def Stray (w : Str) : Prop := w = [] ∨ w.head? = some '/'

/-- Only stray tags. -/
def Strays (l : List Str) : Prop := ∀ w ∈ l, Stray w

theorem Strays.nil : Strays [] := fun _ h => by cases h

theorem Strays.app {l m : List Str} (h1 : Strays l) (h2 : Strays m) : Strays (l ++ m) := by
  intro w hw
  rcases List.mem_append.mp hw with hw | hw
  · exact h1 w hw
  · exact h2 w hw

section

variable {D : Type} {E : Env D} {lost : Nat → Option Str → List Str} (hl : ∀ k o, Strays (lost k o))
include hl

theorem lostTagged_strays (registry : Ifaces) (tag : Option Str) (rest : Str) : Strays (lostTagged lost registry tag rest) := by
  unfold lostTagged
  split
  · exact Strays.nil
  · intro w hw
    rw [List.mem_singleton] at hw
    exact .inl hw
  · split
    · rename_i hc
      intro w hw
      rw [List.mem_singleton] at hw
      subst hw hc
      exact .inr rfl
    · split
      · exact hl _ _
      · exact Strays.nil

theorem lostSread_strays (registry : Ifaces) (s : Str) : Strays (lostSread lost registry s) := by
  unfold lostSread
  split
  · exact lostTagged_strays hl _ _ _
  · exact Strays.nil

theorem lostFread_strays (registry : Ifaces) (s : Str) : Strays (lostFread lost registry s) := by
  unfold lostFread
  split
  · exact lostTagged_strays hl _ _ _
  · exact Strays.nil

theorem lostLoop_strays (registry : Ifaces) : ∀ (n : Nat) (s : Str), Strays (lostLoop E lost registry n s)
  | 0, _ => Strays.nil
  | _ + 1, [] => Strays.nil
  | n + 1, c :: s => by
    unfold lostLoop
    refine (lostSread_strays hl _ _).app ?_
    split
    · exact lostLoop_strays registry n _
    · exact Strays.nil

theorem lostRead_strays (registry : Ifaces) (s : Str) : Strays (lostRead E lost registry s) := by
  unfold lostRead
  split
  · exact lostLoop_strays hl _ _ _
  · exact Strays.nil

theorem symOne_strays {registry : Ifaces} {s s' : Int × Str} {a : Symbol D} {w : List Str} {b : Bool} (h : symOne E lost registry s = .ok (a, w, b, s')) : Strays w := by
  unfold symOne at h
  obtain ⟨x1, _, h⟩ := Out.bind_eq_ok.mp h
  obtain ⟨x2, _, h⟩ := Out.bind_eq_ok.mp h
  obtain ⟨x3, _, h⟩ := Out.bind_eq_ok.mp h
  obtain ⟨x4, _, h⟩ := Out.bind_eq_ok.mp h
  obtain ⟨x5, _, h⟩ := Out.bind_eq_ok.mp h
  obtain ⟨x6, _, h⟩ := Out.bind_eq_ok.mp h
  obtain ⟨x7, _, h⟩ := Out.bind_eq_ok.mp h
  cases h
  exact (((lostSread_strays hl _ _).app (lostSread_strays hl _ _)).app (lostSread_strays hl _ _)).app (lostSread_strays hl _ _)

theorem fillList_strays {registry : Ifaces} : ∀ (k : Nat) {s s' : Int × Str} {l : List (Symbol D)} {w : List Str},
    fillList (symOne E lost registry) k s = .ok (l, w, s') → Strays w
  | 0, s, s', l, w, h => by cases h
  | k + 1, s, s', l, w, h => by
    unfold fillList at h
    obtain ⟨⟨a, w1, b, s1⟩, h1, h⟩ := Out.bind_eq_ok.mp h
    dsimp only at h
    cases b with
    | false => cases h; exact symOne_strays hl h1
    | true =>
      rw [if_pos rfl] at h
      obtain ⟨⟨l2, w2, s2⟩, h2, h⟩ := Out.bind_eq_ok.mp h
      cases h
      exact (symOne_strays hl h1).app (fillList_strays k h2)

theorem lostSymbols_strays (registry : Ifaces) (s : Option Str) : Strays (lostSymbols E lost registry s) := by
  unfold lostSymbols
  split
  · exact Strays.nil
  · split
    · unfold lostSymList
      split
      · exact Strays.nil
      · split
        · rename_i h
          exact fillList_strays hl _ h
        · exact Strays.nil
    · exact Strays.nil

theorem lostExts_strays (registry : Ifaces) : ∀ (n : Nat) (s : Str), Strays (lostExts E lost registry n s)
  | 0, _ => Strays.nil
  | n + 1, s => by
    unfold lostExts after
    refine (lostFread_strays hl _ _).app ?_
    split
    · exact lostExts_strays registry n _
    · exact Strays.nil

end

theorem after_strays {α : Type} {x : Out (α × Str)} {f : α → Str → List Str} (h : ∀ a s, Strays (f a s)) : Strays (after x f) := by
  unfold after
  split
  · exact h _ _
  · exact Strays.nil

theorem extLost_strays {lost : Option Str → List Str} (hl : ∀ o, Strays (lost o)) (k : Nat) (o : Option Str) : Strays (extLost lost k o) := by
  unfold extLost
  split
  · exact hl _
  · exact Strays.nil

theorem tagsLost_strays (c : Cfg) (e : Option Str) : ∀ (n k : Nat) (o : Option Str), Strays (tagsLost c e n k o)
  | 0, _, _ => extLost_strays (fun _ => Strays.nil) _ _
  | n + 1, _, _ => extLost_strays (fun _ => lostSymbols_strays (tagsLost_strays c e n) _ _) _ _

/-- C72: the only strings which are lost by the reading of a file are empty tags and tags which begin with `/`. -/
theorem closing_or_empty (c : Cfg) (e : Option Str) (n : Nat) (s : Str) : ∀ w ∈ libTags c e n s, w = [] ∨ w.head? = some '/' := by
  have hl := tagsLost_strays c e n
  have hs : ∀ k t, Strays (lostStmts c (libAt c e n).toLib (tagsLost c e n) defaultRegistry (Util.get_precision c e) k t) := by
    intro k
    induction k with
    | zero => exact fun _ => Strays.nil
    | succ k ih =>
      intro t
      unfold lostStmts lostStmt
      exact (after_strays (fun _ _ => after_strays (fun _ _ => lostExts_strays hl _ _ _))).app (after_strays (fun _ _ => ih _))
  have hp : ∀ k t, Strays (lostParameters (tagsLost c e n) defaultRegistry k t) := by
    intro k t
    unfold lostParameters
    split
    · exact lostFread_strays hl _ _
    · exact Strays.nil
  have h1 : ∀ t, Strays (tagsScop c (libAt c e n).toLib (tagsLost c e n) defaultRegistry (Util.get_precision c e) t) := by
    intro t
    unfold tagsScop
    exact after_strays (fun _ _ => after_strays (fun _ _ => after_strays (fun _ _ => (hp _ _).app (after_strays (fun _ _ => after_strays (fun _ _ =>
      (hs _ _).app (after_strays (fun _ _ => lostRead_strays hl _ _))))))))
  have h2 : ∀ k t, Strays (tagsScops c (libAt c e n) (tagsLost c e n) defaultRegistry (Util.get_precision c e) k t) := by
    intro k
    induction k with
    | zero => exact fun _ => Strays.nil
    | succ k ih =>
      intro t
      unfold tagsScops
      refine after_strays (fun o t => ?_)
      split
      · exact Strays.nil
      · exact (h1 _).app (after_strays (fun _ _ => ih _))
  exact h2 _ _

end Osl.Mem
