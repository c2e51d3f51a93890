import Verif.PropVfsReply
import Verif.PropSharp

/-!
# C46, exactly: what becomes of every message that the VFS layer gets

Claim C46 holds of messages that can be decoded, with answers that fit into a message.  Here is what becomes of the others.
-/

namespace Fuse
open Spec VfsEv

variable {ν φ η σ ε : Type} {fs : Filesystem ν φ η σ ε} {root : ν} {w0 : σ} {bufs : Nat → Bytes}
  {tr tr2 : List (Nat × Vfs ν φ η (σ × List (Obs ν φ η)) × Vfs ν φ η (σ × List (Obs ν φ η)))}

/-- What becomes of a message, by a thread that has finished with `o`, having sent `sent`; `results` are the results that the
implementation's methods have given it. -/
inductive Spec.Dispatched (layout : FuseLayout) (checks : Bool) (m : Bytes) (results : FuseAnswer → Prop) :
    List (Bytes × Bool) → Option (Outcome ε Unit) → Prop
  /-- The VFS layer does not know the opcode. -/
  | unknown : u32At m 4 ∉ vfsOpcodes → Dispatched layout checks m results [] none
  /-- Decoding is not survived. -/
  | ruin {ty f} : vfsRequestType layout checks (u32At m 4) = some ty → DecodeFaults ty m →
      Dispatched layout checks m results [] (some (.fault f))
  /-- The message is not a request. -/
  | malformed {ty e} : vfsRequestType layout checks (u32At m 4) = some ty → decodeMessage ty m = .error (.req e) →
      Dispatched layout checks m results [] (some (.err (.request e)))
  /-- A request without an answer. -/
  | silent {ty f} : vfsRequestType layout checks (u32At m 4) = some ty → decodeMessage ty m = .ok (.forget f) →
      Dispatched layout checks m results [] (some (.ok ()))
  /-- A request is answered. -/
  | answered {ty q reply} : vfsRequestType layout checks (u32At m 4) = some ty → decodeMessage ty m = .ok q →
      (∀ f, q ≠ .forget f) → u64At reply 8 = u64At m 8 → u32At reply 0 = reply.length →
      Dispatched layout checks m results [(reply, true)] (some (.ok ()))
  /-- A request is answered, but the socket does not take the answer. -/
  | unsent {ty q reply e} : vfsRequestType layout checks (u32At m 4) = some ty → decodeMessage ty m = .ok q →
      (∀ f, q ≠ .forget f) → u64At reply 8 = u64At m 8 → u32At reply 0 = reply.length →
      Dispatched layout checks m results [(reply, false)] (some (.err (.send e)))
  /-- The result of a method does not fit into a message. -/
  | tooBig {ty q a} : vfsRequestType layout checks (u32At m 4) = some ty → decodeMessage ty m = .ok q →
      (∀ f, q ≠ .forget f) → results a → 2 ^ 32 ≤ 16 + (a.payload layout.versionMinor.toNat).length →
      Dispatched layout checks m results []
        (some (.err (.send (.replyTooBig (min (16 + (a.payload layout.versionMinor.toNat).length) (2 ^ 64 - 1))))))

theorem sent_small (fh : UInt64) (fl : UInt32) (minor : Nat) : ¬ 2 ^ 32 ≤ 16 + ((openReply fh fl).payload minor).length := by
  simp [openReply, FuseAnswer.payload, FuseReply.payload]

theorem error_small (e : FuseError) (minor : Nat) : ¬ 2 ^ 32 ≤ 16 + ((FuseAnswer.err e).payload minor).length := by
  simp [FuseAnswer.payload]

/-- **C46**, exactly: every message that is accepted is unknown, cannot be survived or decoded, is not to be answered, is
answered once, or has an answer that does not fit into a message; and the caller is told which.  (Conditions: no `lookup`
method gives the node number 0, which the library's types exclude, and there have been fewer than about `2^64` steps.) -/
theorem C46_exact (h : Serving fs root w0 bufs tr pool s) {t o} (hl : tr.length + 2 < 2 ^ 64)
    (hn : ∀ v, (t, .found v 0) ∉ observed tr) (hp : pool t = .done o) :
    Dispatched fs.layout fs.checks (bufs t) (fun a => (t, .returned a) ∈ observed tr) (messagesOf t (observed tr)) o := by
  have ha := h.accepted t
  have hh := hdrOf_ok ha
  obtain ⟨L, _, hL, _, l1, _, l3, _, h2, _⟩ := h.hist (.nil _ _)
  obtain ⟨rest, out, h3, h4, -⟩ := h2 t
  obtain ⟨rfl, rfl⟩ := h4 o hp
  rw [List.append_nil] at h3
  have hmsg : eventsOf t L = [] → messagesOf t (observed tr) = [] := by
    intro he
    rw [l3, messagesOf_obsOf, he]
    rfl
  generalize he : eventsOf t L = evs at h3 hmsg
  cases h3 with
  | unsupported ht =>
    rw [hmsg rfl]
    rw [hh.2.2.1] at ht
    exact .unknown (vfsRequestType_none.mp ht)
  | malformed ht hd =>
    rw [hmsg rfl]
    rw [hh.2.2.1] at ht
    exact .malformed ht (by unfold decodeMessage; rw [ha]; exact hd)
  | broken ht hb =>
    rw [hmsg rfl]
    rw [hh.2.2.1] at ht
    rename_i ty f
    refine .ruin ht ?_
    rcases hb with ⟨f, hd⟩ | ⟨a, hd, hna⟩
    · exact (C04_exact ty (bufs t)).1.mp ⟨f, by unfold decodeMessage; rw [ha]; exact hd⟩
    · exact absurd ((C04_exact ty (bufs t)).2 a (by unfold decodeMessage; rw [ha]; exact hd)) hna
  | handled ht hd hv =>
    rename_i ty q out
    rw [hh.2.2.1] at ht
    have hd : decodeMessage ty (bufs t) = .ok q := by unfold decodeMessage; rw [ha]; exact hd
    rcases h.answered ⟨ty, ht, hd⟩ ((C04_exact ty (bufs t)).2 q hd) hl hn hp with
      ⟨⟨f, rfl⟩, ho, hm⟩ | ⟨hq, ⟨m, ok, hm, hid, hlen, ho1, ho2⟩ | ⟨hm, n, hn2, ho⟩⟩
    · rw [hm, ho]
      exact .silent ht hd
    · rw [hm]
      cases ok with
      | true => rw [ho1 rfl]; exact .answered ht hd hq hid hlen
      | false =>
        obtain ⟨e, ho⟩ := ho2 rfl
        rw [ho]
        exact .unsent ht hd hq hid hlen
    · rw [hm]
      cases ho
      have hrep := hv.reports
      rcases hv.ends with ⟨f, h5⟩ | ⟨f, rfl, -⟩ | ⟨-, A, a, r, B, h5, h6, h7⟩
      · cases h5
      · exact absurd rfl (hq f)
      · cases r with
        | ok u => cases h7
        | error e =>
          cases h7
          have hmem : VfsEv.sent a (.error (.replyTooBig n)) ∈ evs := by rw [h5]; simp
          obtain ⟨_, _, s1, s2, _, _, hE, _⟩ := hL.split_at (mem_eventsOf.mp (he ▸ hmem))
          by_cases hs : 16 + (a.payload fs.layout.versionMinor.toNat).length < 2 ^ 32
          · exfalso
            have h8 := messagesOf_obsOf (minor := fs.layout.versionMinor.toNat) (hdr := fun t => hdrOf (bufs t)) (L := L) (t := t)
            rw [← l3, hm, he, h5, List.flatMap_append, List.flatMap_cons] at h8
            have h9 := congrArg List.length h8
            rw [List.length_append, List.length_append] at h9
            have h10 : (evMessages fs.layout.versionMinor.toNat (hdrOf (bufs t)).unique
              (VfsEv.sent (ν := ν) (φ := φ) (η := η) (ε := ε) a (.error (.replyTooBig n)))).length = 1 := by
              dsimp only [evMessages]
              rw [if_pos hs]
              rfl
            simp only [List.length_nil] at h9
            omega
          · have h8 := hE.1.2 hs
            injection h8 with h8 _
            injection h8 with h8
            injection h8 with h8
            rw [h8]
            have hbig : 2 ^ 32 ≤ 16 + (a.payload fs.layout.versionMinor.toNat).length := Nat.le_of_not_lt hs
            refine .tooBig ht hd hq ?_ hbig
            obtain ⟨past, hpast, hg⟩ := guarded_mem (rest := []) (by rw [List.append_nil]; exact hrep) hmem
            rcases hg a _ rfl with ⟨y, hy, hr⟩ | ⟨x, fl, fh, -, -, rfl⟩ | ⟨-, ⟨-, ⟨-, rfl⟩ | ⟨-, rfl⟩⟩ | ⟨-, rfl⟩⟩
            · rw [l3]
              exact mem_obsOf.mpr ⟨y, mem_eventsOf.mp (he ▸ hpast y hy), obs_returned.mpr hr⟩
            · exact (sent_small _ _ _ hbig).elim
            · exact (error_small _ _ hbig).elim
            · exact (error_small _ _ hbig).elim
            · exact (error_small _ _ hbig).elim

/-- **C46**, exactly: messages that are not survived end the thread at once, without an answer. -/
theorem C46_ruin (h : Serving fs root w0 bufs tr pool s) {t ty}
    (ht : vfsRequestType fs.layout fs.checks (u32At (bufs t) 4) = some ty) (hf : DecodeFaults ty (bufs t)) :
    (∃ f, pool t = .done (some (.fault f))) ∧ t ∉ tr.map (·.1) := by
  obtain ⟨f, hd⟩ := (C04_exact ty (bufs t)).1.mpr hf
  have hh := hdrOf_ok (h.accepted t)
  unfold decodeMessage at hd
  rw [h.accepted t] at hd
  obtain ⟨L, _, _, _, l1, _, _, _, h2, _⟩ := h.hist (.nil _ _)
  have key : ∀ l o, DispatchTrace fs.recorded ⟨bufs t⟩ (hdrOf (bufs t)) l o → l = [] ∧ ∃ f, o = some (.fault f) := by
    intro l o hx
    rw [← hh.2.2.1] at ht
    cases hx with
    | unsupported ht' => cases ht.symm.trans ht'
    | malformed ht' hd' =>
      cases ht.symm.trans ht'
      cases hd.symm.trans hd'
    | broken ht' hd' => exact ⟨rfl, _, rfl⟩
    | handled ht' hd' =>
      cases ht.symm.trans ht'
      cases hd.symm.trans hd'
  obtain ⟨rest, o, h3, h4, h5⟩ := h2 t
  obtain ⟨hl, f, rfl⟩ := key _ _ h3
  obtain ⟨he, rfl⟩ := List.append_eq_nil_iff.mp hl
  constructor
  · cases hp : pool t with
    | done o' => exact ⟨f, by rw [← (h4 o' hp).2]⟩
    | step g k => exact absurd rfl (h5 g k hp)
  · rw [← l1]
    exact no_steps he

/-! ## Concrete cases -/

namespace VfsAll

/-- A BATCH_FORGET with `2^28` items, none of which are there, is not survived, with or without overflow checks. -/
example : DecodeFaults (.forget true) hugeForget ∧ DecodeFaults (.forget false) hugeForget ∧
    vfsRequestType ⟨31, 0⟩ true (u32At hugeForget 4) = some (.forget true) := by
  refine ⟨?_, ?_, rfl⟩ <;> exact ⟨by decide +kernel, by decide +kernel⟩

/-- Together with GETATTR and a LOOKUP whose name does not end: the thread of the first has failed, the second is answered, and
the third is found to be malformed. -/
example : let msgs := [hugeForget, demoGetattr 1, demoMsg 1 11 1 [97]]
    let run := demoSched msgs [0, 1, 2, 1, 0, 2, 1, 2]
    (∃ f, run.2.1 0 = .done (some (.fault f))) ∧
    (∃ reply, Dispatched (ε := Unit) ⟨31, 0⟩ true (demoGetattr 1) (fun a => (1, .returned a) ∈ observed run.1) [(reply, true)]
      (some (.ok ()))) ∧
    ∃ e, Dispatched (ε := Unit) ⟨31, 0⟩ true (demoMsg 1 11 1 [97]) (fun a => (2, .returned a) ∈ observed run.1) []
      (some (.err (.request e))) := by
  intro msgs run
  have hs : Serving demoFs 100 () (demoBufs msgs) run.1 run.2.1 run.2.2 := demo_serving _ _ (by decide +kernel)
  have hn : ∀ t v, (t, .found v 0) ∉ observed run.1 := by
    have h : (observed run.1).all (fun x => match x.2 with | .found _ i => i != 0 | _ => true) = true := by decide +kernel
    intro t v hx
    exact Bool.noConfusion (List.all_eq_true.mp h _ hx)
  have hl : run.1.length + 2 < 2 ^ 64 := by decide +kernel
  refine ⟨(C46_ruin hs (t := 0) (ty := .forget true) rfl ⟨by decide +kernel, by decide +kernel⟩).1, ?_, ?_⟩
  · have hp : (match run.2.1 1 with | .done (some (.ok ())) => true | _ => false) = true := by decide +kernel
    have hm : (messagesOf 1 (observed run.1)).map (·.2) = [true] := by decide +kernel
    split at hp
    · rename_i hp'
      have h := C46_exact hs hl (hn 1) hp'
      obtain ⟨x, l, h1, h2, h3⟩ := List.map_eq_cons_iff.mp hm
      obtain ⟨reply, b⟩ := x
      cases List.map_eq_nil_iff.mp h3
      cases h2
      rw [h1] at h
      exact ⟨reply, h⟩
    · cases hp
  · have hp : (match run.2.1 2 with | .done (some (.err (.request _))) => true | _ => false) = true := by decide +kernel
    have hm : messagesOf 2 (observed run.1) = [] := by decide +kernel
    split at hp
    · rename_i hp'
      have h := C46_exact hs hl (hn 2) hp'
      rw [hm] at h
      exact ⟨_, h⟩
    · cases hp

end VfsAll

end Fuse
