import Verif.Model.Addr
import Verif.Model.Basic
import Verif.Model.Dhcp
import Verif.Model.Display
import Verif.Model.DisplayRegs
import Verif.Model.Dns
import Verif.Model.Hl.Hostname
import Verif.Model.Hl.Io
import Verif.Model.Hl.Prog
import Verif.Model.Hl.Tcp
import Verif.Model.Hl.Udp
import Verif.Model.LL
import Verif.Model.Mqtt
import Verif.Model.MqttTls
import Verif.Model.Rand
import Verif.Model.Registers
import Verif.Model.Regsim
import Verif.Model.Sntp
import Verif.Model.Specifiers
import Verif.Model.Spi
import Verif.Model.SpiMore
import Verif.Model.Str
import Verif.Model.Tls.Aes
import Verif.Model.Tls.Buffer
import Verif.Model.Tls.Client
import Verif.Model.Tls.ClientHello
import Verif.Model.Tls.Codes
import Verif.Model.Tls.Gcm
import Verif.Model.Tls.Ghash
import Verif.Model.Tls.KeySchedule
import Verif.Model.Tls.Record
import Verif.Model.Tls.ServerHello
import Verif.Proof.Basic
import Verif.Proof.Bmul
import Verif.Proof.Call
import Verif.Proof.Calm
import Verif.Proof.Closed
import Verif.Proof.ClosedProg
import Verif.Proof.Cost
import Verif.Proof.CostMqtt
import Verif.Proof.Datagrams
import Verif.Proof.DhcpAck
import Verif.Proof.DhcpExchange
import Verif.Proof.DhcpInv
import Verif.Proof.DhcpOpt
import Verif.Proof.DhcpSilent
import Verif.Proof.DhcpTimers
import Verif.Proof.Dns
import Verif.Proof.Emit
import Verif.Proof.Gf2
import Verif.Proof.Ghash
import Verif.Proof.Ghash2
import Verif.Proof.Ghash3
import Verif.Proof.History
import Verif.Proof.Hostname
import Verif.Proof.Inplace
import Verif.Proof.LL
import Verif.Proof.Mqtt
import Verif.Proof.MqttIn
import Verif.Proof.MqttRun
import Verif.Proof.MqttTls
import Verif.Proof.MqttTlsGrows
import Verif.Proof.MqttTlsJoin
import Verif.Proof.MqttTlsSend
import Verif.Proof.Open
import Verif.Proof.OpenRegs
import Verif.Proof.Panic
import Verif.Proof.PanicDhcp
import Verif.Proof.PanicDns
import Verif.Proof.PanicMqtt
import Verif.Proof.PanicMqttTls
import Verif.Proof.PanicTls
import Verif.Proof.PanicTlsClient
import Verif.Proof.PanicTlsSend
import Verif.Proof.Peace
import Verif.Proof.PeaceClosed
import Verif.Proof.Prog
import Verif.Proof.Reader
import Verif.Proof.Regsim
import Verif.Proof.RegsimInv
import Verif.Proof.RegsimRing
import Verif.Proof.RegsimState
import Verif.Proof.RegsimUdp
import Verif.Proof.Rx
import Verif.Proof.Seek
import Verif.Proof.Sha256
import Verif.Proof.Spi
import Verif.Proof.Table
import Verif.Proof.TcpRx
import Verif.Proof.TlsArrive
import Verif.Proof.TlsBuffer
import Verif.Proof.TlsFragment
import Verif.Proof.TlsGrows
import Verif.Proof.TlsHandshake
import Verif.Proof.TlsHonest
import Verif.Proof.TlsIdle
import Verif.Proof.TlsInv
import Verif.Proof.TlsOffer
import Verif.Proof.TlsOverflow
import Verif.Proof.TlsParse
import Verif.Proof.TlsPlain
import Verif.Proof.TlsReader
import Verif.Proof.TlsReceive
import Verif.Proof.TlsShaking
import Verif.Proof.TlsSteps
import Verif.Proof.TlsTake
import Verif.Proof.TlsWait
import Verif.Proof.Trace
import Verif.Proof.TraceClients
import Verif.Proof.TraceMqttTls
import Verif.Proof.TraceProgs
import Verif.Proof.TraceTls
import Verif.Proof.TxOnly
import Verif.Proof.TxRoom
import Verif.Proof.UdpQueue
import Verif.Proof.UdpReaderRel
import Verif.Proof.UdpRx
import Verif.Proof.World
import Verif.Proof.Writer
import Verif.Proof.X
import Verif.Spec.Aes
import Verif.Spec.Call
import Verif.Spec.Chip
import Verif.Spec.ClientHello
import Verif.Spec.Cost
import Verif.Spec.Cursor
import Verif.Spec.Datagrams
import Verif.Spec.Dhcp
import Verif.Spec.DhcpExchange
import Verif.Spec.DhcpHistory
import Verif.Spec.DhcpRenew
import Verif.Spec.DhcpSilent
import Verif.Spec.Display
import Verif.Spec.DisplayRegs
import Verif.Spec.Dns
import Verif.Spec.DnsSession
import Verif.Spec.Gcm
import Verif.Spec.History
import Verif.Spec.Hostname
import Verif.Spec.Mdns
import Verif.Spec.Mqtt
import Verif.Spec.MqttConnect
import Verif.Spec.MqttDuplex
import Verif.Spec.MqttSession
import Verif.Spec.MqttTlsDuplex
import Verif.Spec.MqttTlsPolls
import Verif.Spec.MqttTlsSession
import Verif.Spec.Panic
import Verif.Spec.PanicMqttTls
import Verif.Spec.PanicTls
import Verif.Spec.RegFile
import Verif.Spec.Regsim
import Verif.Spec.ResetPin
import Verif.Spec.ServerHello
import Verif.Spec.Sha256
import Verif.Spec.Sntp
import Verif.Spec.SntpSession
import Verif.Spec.SpiSlave
import Verif.Spec.Stream
import Verif.Spec.Table
import Verif.Spec.TlsHandshake
import Verif.Spec.TlsHandshakeMsg
import Verif.Spec.TlsKeys
import Verif.Spec.TlsPolls
import Verif.Spec.TlsQueue
import Verif.Spec.TlsRecord
import Verif.Spec.TlsServer
import Verif.Spec.Trace
import Verif.Spec.World
import Verif.Thm.ClientHello
import Verif.Thm.Connect
import Verif.Thm.Cost
import Verif.Thm.CostClients
import Verif.Thm.CostDhcp
import Verif.Thm.CostDns
import Verif.Thm.CostTls
import Verif.Thm.DhcpExchange
import Verif.Thm.DhcpLease
import Verif.Thm.DhcpLink
import Verif.Thm.DhcpMsg
import Verif.Thm.DhcpOffer
import Verif.Thm.DhcpOptions
import Verif.Thm.DhcpRenew
import Verif.Thm.DhcpReports
import Verif.Thm.DhcpSilent
import Verif.Thm.DhcpTimes
import Verif.Thm.Display
import Verif.Thm.DisplayRegs
import Verif.Thm.Dns
import Verif.Thm.DnsMessage
import Verif.Thm.DnsQuery
import Verif.Thm.DnsRecords
import Verif.Thm.DnsSession
import Verif.Thm.HlFrame
import Verif.Thm.HlOpen
import Verif.Thm.HlSeek
import Verif.Thm.HlStatus
import Verif.Thm.HlTcp
import Verif.Thm.HlUdp
import Verif.Thm.Hostname
import Verif.Thm.LLRegs
import Verif.Thm.LLTables
import Verif.Thm.Mdns
import Verif.Thm.MqttConnect
import Verif.Thm.MqttDuplex
import Verif.Thm.MqttHist
import Verif.Thm.MqttIn
import Verif.Thm.MqttOut
import Verif.Thm.MqttSend
import Verif.Thm.MqttSession
import Verif.Thm.MqttTlsDuplex
import Verif.Thm.MqttTlsErr
import Verif.Thm.MqttTlsIn
import Verif.Thm.MqttTlsOut
import Verif.Thm.MqttTlsPolls
import Verif.Thm.MqttTlsRetry
import Verif.Thm.MqttTlsSession
import Verif.Thm.MqttTlsStuck
import Verif.Thm.MqttTlsWhole
import Verif.Thm.MqttVbi
import Verif.Thm.Panic
import Verif.Thm.PanicTls
import Verif.Thm.PanicTlsSend
import Verif.Thm.Rand
import Verif.Thm.Regsim
import Verif.Thm.RegsimSockets
import Verif.Thm.RegsimState
import Verif.Thm.ServerHello
import Verif.Thm.Simr
import Verif.Thm.Sntp
import Verif.Thm.SntpSession
import Verif.Thm.Spi
import Verif.Thm.SpiMore
import Verif.Thm.TlsAes
import Verif.Thm.TlsAlerts
import Verif.Thm.TlsBuffer
import Verif.Thm.TlsCodes
import Verif.Thm.TlsComplete
import Verif.Thm.TlsGcm
import Verif.Thm.TlsGhash
import Verif.Thm.TlsHandshake
import Verif.Thm.TlsKeys
import Verif.Thm.TlsPlace
import Verif.Thm.TlsPolls
import Verif.Thm.TlsReassembly
import Verif.Thm.TlsReceive
import Verif.Thm.TlsRecord
import Verif.Thm.TlsRetry
import Verif.Thm.TlsWaits
import Verif.Thm.TlsWitness
import Verif.Thm.Trace
import Verif.Thm.TraceTls
import Verif.Thm.Utf8
