import Verif.PropVfsNode

/-!
# How the VFS handlers end, and what their replies say
-/

namespace Fuse

open Spec VfsEv

variable {ν φ η σ ε : Type}

/-! ## Facts about traces -/

/-- The event returns a result that is to be reported as this answer. -/
def VfsEv.result : VfsEv ν φ η ε → Option FuseAnswer
  | .getattr _ _ r => some (attrResult r)
  | .getxattr _ _ r | .listxattr _ _ r => some (dataResult r)
  | .statfs _ _ r => some (statfsResult r)
  | .readlink _ _ r => some (linkResult r)
  | .readdir _ _ r | .readdirplus _ _ r | .read _ _ r => some (dataResult r)
  | .write _ _ r => some (writeResult r)
  | .lookup _ _ (.error e) | .open_ _ _ (.error e) | .opendir _ _ (.error e) => some (.err e)
  | .lookup _ _ (.ok res) =>
    match res.node with
    | some x => some (foundEntry res x.2)
    | none => some (negativeEntry res)
  | .releaseFailed _ _ _ e | .releasedirFailed _ _ _ e => some (.err e)
  | .released .. | .releasedDir .. => some .okEmpty
  | _ => none

theorem obs_returned {minor : Nat} {hdr : FuseInHeader} {e : VfsEv ν φ η ε} {a : FuseAnswer} :
    Obs.returned a ∈ e.obs minor hdr ↔ e.result = some a := by
  cases e with
  | sent a r =>
    simp only [VfsEv.obs]
    split <;> simp [result]
  | lookup v q r =>
    cases r with
    | error e => simp [VfsEv.obs, lookupObs, result, eq_comm]
    | ok res =>
      cases hn : res.node with
      | none => simp [VfsEv.obs, lookupObs, result, hn, eq_comm]
      | some p => simp [VfsEv.obs, lookupObs, result, hn, eq_comm]
  | open_ v q r => cases r <;> simp [VfsEv.obs, openObs, result, eq_comm]
  | opendir v q r => cases r <;> simp [VfsEv.obs, openObs, result, eq_comm]
  | _ => simp [VfsEv.obs, releaseObs, result, eq_comm]

/-- The requests that need a directory. -/
def AnyRequest.NeedsDir : AnyRequest → Prop
  | .lookup _ | .opendir _ => True
  | _ => False

section
variable {fs : Filesystem ν φ η σ ε} {q : AnyRequest} {evs : List (VfsEv ν φ η ε)} {out : Outcome ε Unit}

theorem onNode_not_forget {i : NodeId} (h : OnNode i q) (f) : q ≠ .forget f := by
  rintro rfl
  exact h

theorem onHandle_not_forget {d : Bool} {fh : UInt64} (h : OnHandle d fh q) (f) : q ≠ .forget f := by
  rintro rfl
  cases d <;> exact h

/-- How a trace ends. -/
theorem VfsTrace.ends (h : VfsTrace fs q evs out) :
    (∃ f, out = .fault f) ∨ (∃ f, q = .forget f ∧ evs = [.forgot f.items] ∧ out = .ok ()) ∨
    ((∀ f, q ≠ .forget f) ∧ ∃ A a r B, evs = A ++ .sent a r :: B ∧ (∀ e ∈ A ++ B, e.sends = none) ∧
      out = afterSend r) := by
  cases h <;> first
    | exact .inl ⟨_, rfl⟩
    | exact .inr (.inl ⟨_, rfl, rfl, rfl⟩)
    | exact .inr (.inr ⟨onNode_not_forget ‹OnNode _ _›, [_], _, _, [], rfl, by simp [sends], rfl⟩)
    | exact .inr (.inr ⟨onHandle_not_forget (d := false) ‹OnFile _ _›, [_], _, _, [], rfl, by simp [sends], rfl⟩)
    | exact .inr (.inr ⟨onHandle_not_forget (d := true) ‹OnDir _ _›, [_], _, _, [], rfl, by simp [sends], rfl⟩)
    | (refine .inr (.inr ⟨nofun, [_], _, _, [], rfl, by simp [sends], rfl⟩); done)
    | (refine .inr (.inr ⟨nofun, [_, _], _, _, [], rfl, by simp [sends], rfl⟩); done)
    | (refine .inr (.inr ⟨nofun, [_, _, _], _, _, [], rfl, by simp [sends], rfl⟩); done)
    | (refine .inr (.inr ⟨nofun, [_, _, _], _, _, [_], rfl, by simp [sends], rfl⟩); done)
    | (refine .inr (.inr ⟨nofun, [_, _, _, _], _, _, [], rfl, by simp [sends], rfl⟩); done)

/-- At most five steps. -/
theorem VfsTrace.short (h : VfsTrace fs q evs out) : evs.length ≤ 5 := by
  cases h <;> simp

/-- Why a handler may fail to return. -/
theorem VfsTrace.faults {f : Fault} (h : VfsTrace fs q evs (.fault f)) :
    (∃ e ∈ evs, ∃ v, e.finds = some (v, 0)) ∨ .handlesFull ∈ evs ∨ ∃ i, .countFull i ∈ evs := by
  generalize ho : (Outcome.fault f : Outcome ε Unit) = o at h
  have hs : ∀ r : Except (SendError ε) Unit, Outcome.fault f ≠ afterSend r := by
    intro r
    cases r <;> exact nofun
  cases h <;> first
    | exact absurd ho (hs _)
    | (cases ho; done)
    | (left; exact ⟨_, List.mem_cons_of_mem _ (List.mem_cons_of_mem _ (List.mem_cons_self ..)), _, by
        simp [finds, *]; rfl⟩)
    | (right; simp [-Subtype.exists]; done)

set_option maxHeartbeats 1000000 in
/-- What a reply says. -/
theorem VfsTrace.reports (h : VfsTrace fs q evs out) :
    Guarded (fun past e => ∀ a r, e.sends = some (a, r) →
      (∃ y ∈ past, y.result = some a) ∨
      (∃ x fl fh, (∃ y ∈ past, y.opens = some (x, fl)) ∧ (∃ y ∈ past, y.allocs = some (fh, x)) ∧ a = openReply fh fl) ∨
      ((∀ y ∈ evs, y.result = none ∧ y.opens = none) ∧
        (((∃ y ∈ past, (∃ x, y.usesNode = some x) ∨ ∃ x, y.uses = some x) ∧
          (q.NeedsDir ∧ a = .err fs.os.notDirectory ∨ ¬ q.NeedsDir ∧ a = .err fs.os.notSupported)) ∨
         ((∀ y ∈ evs, y.usesNode = none ∧ y.uses = none) ∧ a = .err fs.os.invalidArgument)))) [] evs := by
  cases h <;> simp [Guarded, sends, result, opens, allocs, usesNode, uses, AnyRequest.NeedsDir, attrResult, dataResult,
    statfsResult, linkResult, writeResult, reported, *]
  · exact ⟨_, _, ⟨rfl, rfl⟩, _, ⟨rfl, rfl⟩, rfl⟩
  · exact ⟨_, _, ⟨rfl, rfl⟩, _, ⟨rfl, rfl⟩, rfl⟩

set_option maxHeartbeats 1000000 in
/-- The result of a method is what the reply says. -/
theorem VfsTrace.result_sent (h : VfsTrace fs q evs out) {y e a a' r} (hy : y ∈ evs) (he : e ∈ evs)
    (ha : y.result = some a) (hs : e.sends = some (a', r)) : a' = a := by
  revert hy he ha hs
  cases h <;> simp only [List.mem_cons, List.not_mem_nil, or_false] <;> intro hy he ha hs <;>
    (repeat' (rcases hy with rfl | hy)) <;> (repeat' (rcases he with rfl | he)) <;>
    simp_all [sends, result, attrResult, dataResult, statfsResult, linkResult, writeResult, reported]

/-- At most one method returns something to be reported. -/
theorem VfsTrace.result_once (h : VfsTrace fs q evs out) : (evs.filterMap result).length ≤ 1 := by
  cases h <;> first
    | exact Nat.le_refl 1
    | exact Nat.zero_le 1
    | simp [result, List.filterMap_cons, *]

end

/-! ## The counters -/

theorem Hist.next_le {fs : Filesystem ν φ η σ ε} {hdr s L s'} (h : Hist fs hdr s L s') :
    s'.handles.nextHandleId.toNat ≤ s.handles.nextHandleId.toNat + L.length := by
  induction h with
  | nil => exact Nat.le_refl _
  | @cons s s1 s' t e L he hh ih =>
    have : s1.handles.nextHandleId.toNat ≤ s.handles.nextHandleId.toNat + 1 := by
      cases ha : e.allocs with
      | some x =>
        obtain ⟨h1, h2, _⟩ := effect_allocs (fh := x.1) (x := x.2) he ha
        rw [h2, h1]
        exact Nat.le_refl _
      | none =>
        cases hc : e.closes with
        | some x =>
          rw [(effect_closes (d := x.1) (fh := x.2) he hc).1]
          omega
        | none =>
          rw [effect_handles he ha hc]
          omega
    rw [List.length_cons]
    omega

theorem addsFor_le (i : NodeId) (e : VfsEv ν φ η ε) : e.addsFor i ≤ 1 := by
  unfold VfsEv.addsFor
  repeat' split
  all_goals omega

theorem total_addsFor_le (i : NodeId) (L : List (Nat × VfsEv ν φ η ε)) :
    total (VfsEv.addsFor i) L ≤ L.length := by
  induction L with
  | nil => exact Nat.le_refl _
  | cons x L ih =>
    have := addsFor_le i x.2
    show x.2.addsFor i + total _ L ≤ _
    rw [List.length_cons]
    omega

end Fuse
