import Verif.H4.Props
import Verif.Addr.Props
import Verif.Conn.Props
import Verif.Sco.Props
import Verif.Async.Props
import Verif.Phy.Props
import Verif.Pcap.Props
import Verif.Sock.Props
import Verif.Hec.Props
import Verif.Le.PropsLists
import Verif.Le.PropsSelect
import Verif.Le.PropsAdv
import Verif.Le.PropsLimit
import Verif.Le.PropsParams
import Verif.Le.PropsReject
import Verif.Iso.PropsHandles
import Verif.Iso.PropsCig
import Verif.Iso.PropsCreate
import Verif.Iso.PropsAgree
import Verif.Iso.PropsCrash
import Verif.Iso.PropsData
import Verif.Task.Props
import Verif.Test.TransportProps
import Verif.Test.HandlerProps
import Verif.Mask.Props
import Verif.Ll.PropsRpa
import Verif.Ll.PropsReport
import Verif.Ll.PropsSync
import Verif.Ll.PropsConn
import Verif.Ll.PropsScan
import Verif.Ll.PropsActive
import Verif.Ll.PropsInit
import Verif.Ll.PropsAccept
import Verif.Ec.Props
import Verif.Lmp.Props
import Verif.Lmp.PairProps
import Verif.Lmp.EncProps
import Verif.Sub.Props
import Verif.Cs.Props
import Verif.Cs.PropsPeer
import Verif.Br.PropsFail
import Verif.Br.PropsConnect
import Verif.Br.PropsPair
import Verif.Br.PropsData
import Verif.Br.PropsSync
import Verif.Br.PropsInquiry
import Verif.Br.PropsRemote
import Verif.Hci.PropsAnswer
import Verif.Hci.PropsConfig
import Verif.Hci.PropsReset
import Verif.Link.PropsPhy
import Verif.Link.PropsEnc
import Verif.Link.PropsData
import Verif.Apcf.Props
import Verif.Reg.Props
import Verif.Pdl.Props
import Verif.Port.Props
import Verif.Port.Framed
import Verif.Port.AirProps
import Verif.Cfg.PropsChoice
import Verif.Cfg.PropsFeatures
import Verif.Cfg.PropsCommands
import Verif.Cfg.PropsPresets
import Verif.Live.Props
import Verif.Voice.Props
import Verif.Pol.Props
import Verif.Flow.Props
import Verif.Lmp.AirProps
import Verif.Watch.Props
import Verif.Env.Props
import Verif.Bye.Props
import Verif.Br.PropsRefuse
import Verif.Fd.PropsServer
import Verif.Cs.PropsRefuse
import Verif.Cs.PropsAnswer
import Verif.Iso.PropsRefuse
import Verif.Iso.PropsReport
import Verif.Le.PropsRefuse
import Verif.Le.Vectors
import Verif.Lmp.Vectors
import Verif.Le.PropsAir
import Verif.Br.PropsWish
import Verif.Ll.PropsAsk
import Verif.Ll.PropsTrain
import Verif.Ll.PropsRead
import Verif.Ll.PropsAnswer
import Verif.Ll.PropsLinks
import Verif.Br.PropsBook
import Verif.Iso.PropsNotes
import Verif.Iso.PropsPair
import Verif.Br.PropsCalls
import Verif.Reset.Props
import Verif.Br.PropsTalk
import Verif.Ll.PropsKind
import Verif.Ll.PropsTwo
import Verif.Ll.Vectors
import Verif.Storm.Props
import Verif.Lmp.TalkProps
import Verif.Csr.Handler
import Verif.Both.Props
import Verif.Wire.Props
import Verif.WireBr.Props
import Verif.Hci.PropsBits
import Verif.WireBr.EventsProps
import Verif.WireLe.Props
import Verif.WireLink.Props
import Verif.WireLink.EventsProps
import Verif.WireAir.Props
import Verif.WireAir.BredrProps
import Verif.WireAir.AdvProps
