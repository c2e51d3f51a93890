import Verif.PropLanguage

/-!
# C57 for all messages

The example program's behaviour on every message the server accepts, well-formed or not.
-/

namespace Fuse

open Spec

variable {σ ε : Type}

/-- The size of the listing asked for. -/
def Spec.helloSize : ClientReq → Nat
  | .readdirOld b => b.size.toNat
  | .readdir b => b.size.toNat
  | _ => 0

/-- **C57** for every message the server accepts, with `idOf m` and `nodeOf m` the request ID and node of its header.
* FORGET (2), INTERRUPT (36) and BATCH_FORGET (42) have no effect, whatever follows the header.
* Operations other than the seven of `helloType` are answered with -38, whatever follows the header.
* A message that encodes a request of the seven operations is answered as `helloAnswer` says.
* A READDIR without room for the entry panics; if there is room, but the memory allocated for the listing is not
  aligned, the behaviour is undefined.
* A message that encodes no request panics. -/
theorem C57_exact (fs : Hello σ ε) (m : Bytes) (ha : Acceptable m) :
    (u32At m 4 ∈ [2, 36, 42] → ∀ s, fs.dispatch ⟨m⟩ s = .ok s) ∧
    (u32At m 4 ∉ [2, 36, 42] → helloType fs.layout (u32At m 4) = none → fs.Replies m (idOf m) (-38) []) ∧
    ∀ t, helloType fs.layout (u32At m 4) = some t →
      (∀ a, Encodes t a m → HelloRoom fs.alloc a →
        ∃ e p, helloAnswer fs.uid fs.gid fs.layout.versionMinor.toNat (nodeOf m) a = some (e, p) ∧
          fs.Replies m (idOf m) e p) ∧
      (∀ a, Encodes t a m → ¬ HelloRoom fs.alloc a →
        ∀ s, fs.dispatch ⟨m⟩ s = .error (if helloSize a < 40 then .panic else .misaligned)) ∧
      ((∀ a, ¬ Encodes t a m) → ∀ s, fs.dispatch ⟨m⟩ s = .error .panic) := by
  refine ⟨fs.silent_does ha, fun h1 h2 => fs.other_does ha ?_, fun t ht => ?_⟩
  · intro h
    simp only [List.mem_cons, List.not_mem_nil, or_false] at h h1
    rcases h with h | h | h | h | h | h | h | h | h | h <;> first
      | (rw [h] at h2; cases h2; done)
      | omega
  have hty : t = .lookup ∨ t = .getattr fs.layout ∨ t = .open_ false ∨ t = .read fs.layout.versionMinor.toUInt32 false ∨
      t = .opendir ∨ t = .readdir fs.layout ∨ t = .releasedir fs.layout := by
    unfold helloType at ht
    split at ht <;> cases ht <;> simp
  have hc : t.isCuse = false := by rcases hty with rfl | rfl | rfl | rfl | rfl | rfl | rfl <;> rfl
  have hdec : ∀ a, Encodes t a m → Hello.Understood t a (nodeOf m) m := by
    intro a h
    refine ⟨ha, h.2.2.1, C67_decodes_partial h ?_ ?_⟩
    · have := h.2.1
      rcases hty with rfl | rfl | rfl | rfl | rfl | rfl | rfl <;> cases a <;> first | trivial | exact this.elim
    · have := h.2.1
      intro h'
      rcases hty with rfl | rfl | rfl | rfl | rfl | rfl | rfl <;> cases a <;> first | exact h'.elim | exact this.elim
  refine ⟨fun a h hr => ?_, fun a h hr s => ?_, fun h s => ?_⟩
  · exact fs.understood_does (by rw [← h.2.2.1]; exact ht) (hdec a h) (by have := h.2.2.2.2; rwa [hc] at this) hr
  · have hu := hdec a h
    cases a <;> first | exact absurd trivial hr | skip
    all_goals
      rename_i b
      have h28 : u32At m 4 = 28 := h.2.2.1
      rw [h28] at ht
      cases ht
      have hb : b.fh = 1002 ∧ b.offset = 0 := by
        refine ⟨Classical.byContradiction fun h => ?_, Classical.byContradiction fun h => ?_⟩
        · exact hr fun h' => absurd h' h
        · exact hr fun _ h' => absurd h' h
      refine fs.readdir_faults hu rfl ?_ (fun h => hr fun _ _ => h) s
      intro x hx
      obtain ⟨o, h1, h2⟩ := hx.2.2.2.2
      rw [if_pos hb.2] at h2
      refine ⟨hx.2.1, by rw [hx.2.2.1, hb.1], ?_⟩
      rw [h1]
      cases o with
      | none => rfl
      | some _ => cases h2
  · cases hd : decodeMessage t m with
    | ok r =>
      exfalso
      rcases (C67_exact t m).1.mp ⟨r, hd⟩ with ⟨a, h1, _⟩ | ⟨v, h1⟩
      · exact h a h1
      · obtain ⟨_, _, _, l, hl, _⟩ := h1
        rcases hty with rfl | rfl | rfl | rfl | rfl | rfl | rfl <;> cases hl
    | error x =>
      cases x with
      | req e => exact fs.undecoded_faults ht ha hd s
      | fault f =>
        exfalso
        have := (C04_exact t m).1.mp ⟨f, hd⟩
        rcases hty with rfl | rfl | rfl | rfl | rfl | rfl | rfl <;> exact this.2.elim

/-- A LOOKUP whose name is missing is accepted, and panics; what follows the message does not matter. -/
def helloNameless (tail : Bytes) : Bytes := le32 40 ++ le32 1 ++ le64 4 ++ le64 1 ++ List.replicate 16 0 ++ tail

example (fs : Hello σ ε) (s : σ) (tail : Bytes) : fs.dispatch ⟨helloNameless tail⟩ s = .error .panic := by
  have hlen : (helloNameless tail).length = 40 + tail.length := by
    simp [helloNameless]; omega
  have h0 : u32At (helloNameless tail) 0 = 40 := by unfold helloNameless; read_at; rfl
  have h4 : u32At (helloNameless tail) 4 = 1 := by unfold helloNameless; read_at; rfl
  have h8 : u64At (helloNameless tail) 8 = 4 := by unfold helloNameless; read_at; rfl
  have ha : Acceptable (helloNameless tail) := ⟨by omega, by rw [h8]; decide, by omega⟩
  refine ((C57_exact fs _ ha).2.2 .lookup (by rw [h4]; rfl)).2.2 (fun a h => ?_) s
  obtain ⟨_, h1, _, h2, _⟩ := h
  cases a <;> first | exact h1.elim | skip
  have := h2.length_le
  unfold argsOf at this
  rw [h0, List.length_drop, List.length_take] at this
  simp [ClientReq.body, cstring] at this
  omega

end Fuse
