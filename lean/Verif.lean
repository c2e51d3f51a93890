import Verif.Wire
import Verif.Kernel
import Verif.Types
import Verif.Decode
import Verif.Requests
import Verif.DecodeLemmas
import Verif.DecodeSafe
import Verif.RequestSpec
import Verif.RequestSafe
import Verif.DecodeSim
import Verif.RequestSim
import Verif.Spec
import Verif.Layout
import Verif.PropRequest
import Verif.Protocol
import Verif.DecodeRun
import Verif.DecodeSound
import Verif.RequestMatch
import Verif.RequestRun
import Verif.RequestSound
import Verif.RequestAll
import Verif.PropDecode
import Verif.Flags
import Verif.Attr
import Verif.PropTypes
import Verif.PropTime
import Verif.PropIoctlRead
import Verif.PropStatx
import Verif.PropVfsDefault
import Verif.PropStack
import Verif.PropWhole
import Verif.PropShare
import Verif.Rpc
import Verif.RpcOp
import Verif.RpcAns
import Verif.PropRpc
import Verif.Conc
import Verif.PropConc
import Verif.Dev
import Verif.PropDev
import Verif.Note
import Verif.PropNote
import Verif.Old
import Verif.PropOld
import Verif.Many
import Verif.PropMany
import Verif.Hostile
import Verif.PropHostile
import Verif.HostileDev
import Verif.PropHostileDev
import Verif.HostileMany
import Verif.PropHostileMany
import Verif.PropTransport
import Verif.PropTransportMany
import Verif.PropRadix
import Verif.PropHelloBsd
import Verif.PropLocks
import Verif.PropZero
import Verif.Server
import Verif.ReadAt
import Verif.PropReply
import Verif.Ioctl
import Verif.PropIoctl
import Verif.Handshake
import Verif.InitMessage
import Verif.SessionLemmas
import Verif.PropSession
import Verif.Dispatch
import Verif.PropServe
import Verif.Std
import Verif.PropStd
import Verif.Dirent
import Verif.PropDirent
import Verif.Xattr
import Verif.PropXattr
import Verif.Notify
import Verif.PropNotify
import Verif.Mount
import Verif.PropMount
import Verif.Sys
import Verif.PropSocket
import Verif.MountCall
import Verif.PropMountCall
import Verif.Vfs
import Verif.VfsHom
import Verif.VfsTrace
import Verif.VfsRun
import Verif.VfsHist
import Verif.VfsFacts
import Verif.VfsDemo
import Verif.PropVfs
import Verif.VfsCount
import Verif.PropVfsNode
import Verif.VfsReport
import Verif.PropVfsReply
import Verif.PropVfsStatic
import Verif.PropVfsCall
import Verif.VfsLocks
import Verif.VfsLockRun
import Verif.VfsLockErase
import Verif.VfsLockFacts
import Verif.PropVfsLocks
import Verif.PropVfsDrop
import Verif.PropVfsTable
import Verif.Hello
import Verif.ScriptPool
import Verif.PropHello
import Verif.PropSharp
import Verif.PropLanguage
import Verif.PropHistory
import Verif.PropHelloAll
import Verif.ScriptAll
import Verif.PropHelloSession
import Verif.Records
import Verif.PropRecords
import Verif.Conform
import Verif.Debug
import Verif.PropDebug
import Verif.Buffers
import Verif.PropBuffers
import Verif.PropStale
import Verif.Device
import Verif.PropDevice
import Verif.PropDeviceCuse
import Verif.PropConfig
import Verif.Names
import Verif.PropNames
import Verif.Platform
import Verif.PropPlatform
import Verif.DebugReq
import Verif.PropDebugReq
import Verif.PropDebugSame
import Verif.PropDebugLabel
import Verif.DebugPretty
import Verif.PropDebugPretty
import Verif.ConformDebug
import Verif.PropHostileAll
import Verif.PropTransportExact
import Verif.PropTransportNote
import Verif.PropDevAll
import Verif.PropEntry
import Verif.DebugResp
import Verif.PropDuration
import Verif.PropDebugResp
import Verif.PropDebugSent
import Verif.PropDebugRespLabel
import Verif.ConformDebugResp
import Verif.ConformDebugInterop
import Verif.VfsMirror
import Verif.PropVfsDevice
import Verif.PropVfsHostile
import Verif.PropVfsHostileMany
import Verif.StdPanic
import Verif.PropStdPanic
import Verif.PropStdPanicCuse
import Verif.PropVfsReplyAll
import Verif.PropManyLost
import Verif.PropManyEnds
import Verif.PropTransportLost
import Verif.PropTransportEnds
