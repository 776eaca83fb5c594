import Verif.Common.Str
import Verif.Common.Bytes
import Verif.Util.Props
import Verif.RingBuf.Props
import Verif.Perf.Props
import Verif.Linker.Props
import Verif.Reloc.Props
import Verif.Ksyms.Props
import Verif.Section.Props
import Verif.Obj.Props
import Verif.Obj.Globals
import Verif.Obj.Text
import Verif.Btf.Props
import Verif.Btf.SanitizeProps
import Verif.Btf.Lookup
import Verif.Maps.Props
import Verif.Maps.Retry
import Verif.Maps.Hash
import Verif.Maps.Load
import Verif.Links.Program
import Verif.Netlink.Filter
import Verif.Log.Malformed
import Verif.UProbe.Library
import Verif.UProbe.AttachRuns
import Verif.UProbe.Cache
import Verif.Core.Field
import Verif.Core.Runs
import Verif.Core.Every
import Verif.Core.Compat
import Verif.Core.PathRuns
import Verif.Core.Values
import Verif.ObjMaps.Sections
import Verif.Ext.Props
import Verif.Attach.XdpProps
import Verif.Attach.TcxProps
import Verif.Attach.FilterProps
import Verif.Attach.FdProps
import Verif.Attach.LoadProps
import Verif.Attach.QueryProps
import Verif.Pipe.Props
import Verif.Loader.Props
import Verif.Handles.Props
import Verif.Probe.Props
import Verif.Run.Props
import Verif.Ebpf.ArgsProps
import Verif.Ebpf.MemProps
import Verif.Ebpf.ReadProps
import Verif.Ebpf.DeclProps
import Verif.Ebpf.RingProps
import Verif.Ebpf.PerfProps
import Verif.Info.History
import Verif.Features.Cache
import Verif.Shared.Queue
import Verif.Shared.Trie
import Verif.Shared.Redirect
import Verif.Nested.Props
import Verif.Pins.Props
import Verif.Externs.Accept
import Verif.Macros.Props
import Verif.SockFilter.Props
import Verif.LogRun.Props
import Verif.Tool.Props
import Verif.Jump.Props
import Verif.Helpers.Props
import Verif.Socks.Props
import Verif.Mapped.Props
import Verif.Ctx.Props
import Verif.Local.Props
import Verif.Redirect.Props
import Verif.Conv.Props
import Verif.Stacks.Cases
import Verif.Hygiene.Cases
import Verif.Listing.Cases
import Verif.Exit.Cases
import Verif.Stats.Cases
import Verif.Reload.Cases
import Verif.TcLink.Cases
import Verif.Modules.Cases
import Verif.Decls.Cases
import Verif.Verdict.Cases
import Verif.Builds.Cases
import Verif.Fetch.Cases
import Verif.Cpio.Cases
import Verif.Build.Cases
import Verif.LogAttach.Props
import Verif.RingBuf.ManyProps
import Verif.Nested.RaceProps
