import Verif.Rpc
import Verif.PropNotify

/-!
# Filesystems that send notifications

A filesystem that, besides answering, has something to announce (`FuseNotification`), and programs that listen.  What the
server sends goes through one socket: the client has to tell notifications from replies.
-/

namespace Fuse

namespace Spec

/-- What a message from the server is about: an announcement, or a reply to the request with that number. -/
inductive News
  | notice (n : Notice)
  | reply (id : UInt64) (r : Except Int32 Bytes)

/-- A client reading a message; it knows neither. -/
def readNews (m : Bytes) : Option News :=
  if u64At m 8 = 0 then (readNotice m).map .notice
  else (parseReply (.ofNat (u64At m 8)) m).map (.reply (.ofNat (u64At m 8)))

/-- What a program is told about an operation: what was announced before the answer, the answer, and what was announced
after. -/
structure Told where
  before : List Notice
  ans : Ans
  after : List Notice
deriving DecidableEq

/-- How a program uses a filesystem and listens to it. -/
inductive Listener (α : Type)
  | done (a : α)
  | call (who : Caller) (op : Op) (k : Told → Listener α)

/-- Announcements among messages; a message that is none is trouble. -/
def readNotices (out : List Bytes) : Option (List Notice) := out.mapM readNotice

/-- Making sense of what has been heard since the request: a message with number 0 is an announcement. -/
def Op.listen (op : Op) (unique : UInt64) (out : List Bytes) : Told :=
  let before := out.takeWhile fun m => decide (u64At m 8 = 0)
  let rest := out.dropWhile fun m => decide (u64At m 8 = 0)
  match readNotices before, readNotices (rest.drop 1) with
  | some before, some after => ⟨before, op.hear unique (rest.take 1), after⟩
  | _, _ => ⟨[], .broken, []⟩

/-- Listening through messages, of which `n` have been sent. -/
def Listener.talk {α : Type} (ids : Nat → UInt64) (ext : Bool) : Nat → Listener α → Talk α
  | _, .done a => .done a
  | n, .call who op k =>
    .say ((op.request ext).2.message (ids n) (op.request ext).1 who.uid who.gid who.pid 0) fun out =>
      Listener.talk ids ext (n + 1) (k (op.listen (ids n) out))

end Spec

open Spec

/-- What a filesystem does about an operation. -/
structure Reaction where
  before : List Announcement := []
  ans : Ans
  after : List Announcement := []

/-- What a program is told about it. -/
def Reaction.told (r : Reaction) : Told := ⟨r.before.map (·.meaning), r.ans, r.after.map (·.meaning)⟩

/-- Listening to it directly. -/
def Spec.Listener.run {α S : Type} (act : Caller → Op → S → Reaction × S) : Listener α → S → α × S
  | .done a, s => (a, s)
  | .call who op k, s => (k (act who op s).1.told).run act (act who op s).2

/-- A filesystem, and what the server that serves it depends on; see `RpcServer`. -/
structure NoteServer (S : Type) where
  act : Caller → Op → S → Reaction × S
  layout : FuseLayout
  checks : Bool
  os : Os
  addr : Op → Nat

section
variable {S ω ε : Type}

/-- Announcing, with `FuseConnection::notify`, fuse/server.rs:1344-1350.  The state is lost if that fails. -/
def announceAll (sock : Socket (Option S × ω) ε) : List Announcement → Option S × ω → Option S × ω
  | [], w => w
  | a :: l, w =>
    match notify sock a.build w with
    | .ok (.ok (), w) => announceAll sock l w
    | .ok (.error _, w) => (none, w.2)
    | .error _ => (none, w.2)

/-- Answering a request; see `RpcServer.answer`. -/
def NoteServer.answer (srv : NoteServer S) (sock : Socket (Option S × ω) ε) (t : ReqType) (r : Request) (s : S) (w : ω) :
    Option S × ω :=
  match Filesystem.idAndHeader r, r.decode (decodeAny t) with
  | .ok (id, header), .ok q =>
    match q.op with
    | .ok (some op) =>
      let (a, s) := srv.act ⟨header.uid, header.gid, header.pid⟩ op s
      match announceAll sock a.before (some s, w) with
      | (none, w) => (none, w)
      | (some s, w) =>
        let w := match a.ans.reply srv.os (srv.addr op) op.room with
          | .ok (some a) =>
            match a.run (.new sock srv.layout id) (some s, w) with
            | (.ok (), w) => w
            | (.error _, w) => (none, w.2)
          | .ok none => (some s, w)
          | .error _ => (none, w)
        match w with
        | (none, w) => (none, w)
        | (some s, w) => announceAll sock a.after (some s, w)
    | _ => (none, w)
  | _, _ => (none, w)

/-- An implementation of the trait `FuseHandlers`; see `RpcServer.handlers`. -/
def NoteServer.handlers (srv : NoteServer S) (sock : Socket (Option S × ω) ε) : Handlers FuseMethod (Option S × ω) where
  unimplemented _ w := (none, w.2)
  overridden m := (m.reqType srv.layout srv.checks).map fun t r w =>
    match w.1 with
    | none => w
    | some s => srv.answer sock t r s w.2

end

/-! ## Any order of replies and announcements -/

/-- Something a server can send, with any of its connection's methods. -/
inductive Sending
  | reply (id : NonZeroU64) (a : FuseAnswer)
  | notice (a : Announcement)

/-- Sending it, with `FuseConnection::reply`, fuse/server.rs:1333-1341, or `FuseConnection::notify`,
fuse/server.rs:1344-1350. -/
def Sending.run {σ ε : Type} (sock : Socket σ ε) (layout : FuseLayout) (s : σ) :
    Sending → Except Fault (Except (SendError ε) Unit × σ)
  | .reply id a => .ok (a.run (.new sock layout id) s)
  | .notice a => notify sock a.build s

/-- A socket that keeps what it is given. -/
def postbox : Socket (List Bytes) Unit where
  recv buf s := ((.ok 0, buf), s)
  recv_length _ _ := rfl
  send buf s :=
    match buf.chunks with
    | .ok cs => (.ok (), s ++ [cs.flatten])
    | .error _ => (.error (.other ()), s)

/-- Sending one after the other; all have to be sent. -/
def sendAll (layout : FuseLayout) : List Sending → List Bytes → Option (List Bytes)
  | [], s => some s
  | x :: l, s =>
    match x.run postbox layout s with
    | .ok (.ok (), s) => sendAll layout l s
    | _ => none

end Fuse
