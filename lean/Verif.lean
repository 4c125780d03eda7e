import Verif.Model.AsyncConn
import Verif.Model.AsyncInt
import Verif.Model.Auth
import Verif.Model.BinlogCol
import Verif.Model.Bitmap
import Verif.Model.Buffered
import Verif.Model.Builder
import Verif.Model.Client
import Verif.Model.Column
import Verif.Model.Command
import Verif.Model.Conn
import Verif.Model.ConnCmd
import Verif.Model.Convert
import Verif.Model.Crc
import Verif.Model.Dml
import Verif.Model.DmlText
import Verif.Model.Event
import Verif.Model.EventData
import Verif.Model.Flag
import Verif.Model.Flags
import Verif.Model.Floats
import Verif.Model.Json
import Verif.Model.JsonText
import Verif.Model.ListText
import Verif.Model.MsgConfig
import Verif.Model.MsgText
import Verif.Model.MyEnc
import Verif.Model.Packet
import Verif.Model.Parser
import Verif.Model.Program
import Verif.Model.Release
import Verif.Model.ReleaseProgram
import Verif.Model.Request
import Verif.Model.Reserve
import Verif.Model.Rows
import Verif.Model.Sql
import Verif.Model.Stmt
import Verif.Model.Stream
import Verif.Model.TextTime
import Verif.Model.ToCol
import Verif.Model.TypedEvent
import Verif.Model.Utf8
import Verif.Model.WriteFail
import Verif.Spec.Auth
import Verif.Spec.Binlog
import Verif.Spec.Bits
import Verif.Spec.Calendar
import Verif.Spec.Client
import Verif.Spec.Columns
import Verif.Spec.Commands
import Verif.Spec.Crc
import Verif.Spec.Dml
import Verif.Spec.Events
import Verif.Spec.Files
import Verif.Spec.Flags
import Verif.Spec.Floats
import Verif.Spec.Framing
import Verif.Spec.Grammar
import Verif.Spec.Gtids
import Verif.Spec.JsonRead
import Verif.Spec.JsonText
import Verif.Spec.MsgLog
import Verif.Spec.Packets
import Verif.Spec.Reads
import Verif.Spec.Replay
import Verif.Spec.Request
import Verif.Spec.Resume
import Verif.Spec.Rows
import Verif.Spec.RustText
import Verif.Spec.Says
import Verif.Spec.Script
import Verif.Spec.Server
import Verif.Spec.Session
import Verif.Spec.Sha
import Verif.Spec.Sql
import Verif.Spec.Stream
import Verif.Spec.Values
import Verif.Spec.Wire
import Verif.Lemmas.BinlogCol
import Verif.Lemmas.Bitmap
import Verif.Lemmas.Civil
import Verif.Lemmas.Client
import Verif.Lemmas.Conn
import Verif.Lemmas.Crc
import Verif.Lemmas.Decimal
import Verif.Lemmas.FloatDigits
import Verif.Lemmas.FloatParse
import Verif.Lemmas.FloatText
import Verif.Lemmas.Floats
import Verif.Lemmas.Grammar
import Verif.Lemmas.Invert
import Verif.Lemmas.JsonText
import Verif.Lemmas.Literal
import Verif.Lemmas.MyEnc
import Verif.Lemmas.Parser
import Verif.Lemmas.Prim
import Verif.Lemmas.Replay
import Verif.Lemmas.Run
import Verif.Lemmas.Sql
import Verif.Lemmas.Step
import Verif.Lemmas.Times
import Verif.Lemmas.Well
import Verif.Lemmas.Write
import Verif.Props.C01_C03
import Verif.Props.C03_exact
import Verif.Props.C04_C07
import Verif.Props.C08_C09
import Verif.Props.C09_exact
import Verif.Props.C10
import Verif.Props.C100
import Verif.Props.C101
import Verif.Props.C102
import Verif.Props.C103
import Verif.Props.C104
import Verif.Props.C105
import Verif.Props.C106
import Verif.Props.C106Alter
import Verif.Props.C106Grown
import Verif.Props.C107
import Verif.Props.C108
import Verif.Props.C109
import Verif.Props.C109_program
import Verif.Props.C110
import Verif.Props.C111
import Verif.Props.C112
import Verif.Props.C113
import Verif.Props.C114
import Verif.Props.C115
import Verif.Props.C116
import Verif.Props.C117
import Verif.Props.C118
import Verif.Props.C119
import Verif.Props.C119_stream
import Verif.Props.C11_C13
import Verif.Props.C120
import Verif.Props.C121
import Verif.Props.C122
import Verif.Props.C123
import Verif.Props.C124
import Verif.Props.C125
import Verif.Props.C126
import Verif.Props.C127
import Verif.Props.C127_count
import Verif.Props.C128
import Verif.Props.C128_dml
import Verif.Props.C128_more
import Verif.Props.C129
import Verif.Props.C12_exact
import Verif.Props.C130
import Verif.Props.C131
import Verif.Props.C132
import Verif.Props.C133
import Verif.Props.C134
import Verif.Props.C134_more
import Verif.Props.C135
import Verif.Props.C136
import Verif.Props.C136_more
import Verif.Props.C137
import Verif.Props.C137_stream
import Verif.Props.C138
import Verif.Props.C139
import Verif.Props.C139_api
import Verif.Props.C139_exec
import Verif.Props.C139_more
import Verif.Props.C14_C16
import Verif.Props.C14_more
import Verif.Props.C17_C18
import Verif.Props.C19_C21
import Verif.Props.C19_exact
import Verif.Props.C22_C25
import Verif.Props.C23_iff
import Verif.Props.C24_exact
import Verif.Props.C26_C27
import Verif.Props.C28_C32
import Verif.Props.C33_C47_C48
import Verif.Props.C34
import Verif.Props.C35
import Verif.Props.C36
import Verif.Props.C36_exact
import Verif.Props.C36_rows
import Verif.Props.C37
import Verif.Props.C37_enum
import Verif.Props.C38
import Verif.Props.C38_exact
import Verif.Props.C39
import Verif.Props.C39_exact
import Verif.Props.C40_C42
import Verif.Props.C40_exact
import Verif.Props.C40_keys
import Verif.Props.C42_exact
import Verif.Props.C43
import Verif.Props.C44_C45
import Verif.Props.C46
import Verif.Props.C47_iff
import Verif.Props.C49
import Verif.Props.C50_C52
import Verif.Props.C53
import Verif.Props.C54_C55
import Verif.Props.C54_iff
import Verif.Props.C56_C58
import Verif.Props.C57_exact
import Verif.Props.C59_C60
import Verif.Props.C61_C65
import Verif.Props.C66_C69
import Verif.Props.C68_exact
import Verif.Props.C70_C73
import Verif.Props.C70_exact
import Verif.Props.C74
import Verif.Props.C75_C77
import Verif.Props.C77_more
import Verif.Props.C78
import Verif.Props.C78_exact
import Verif.Props.C79
import Verif.Props.C80
import Verif.Props.C81
import Verif.Props.C82
import Verif.Props.C83
import Verif.Props.C84
import Verif.Props.C84_more
import Verif.Props.C85
import Verif.Props.C86
import Verif.Props.C87
import Verif.Props.C88
import Verif.Props.C88_login
import Verif.Props.C89_C90
import Verif.Props.C90_more
import Verif.Props.C91
import Verif.Props.C92
import Verif.Props.C93
import Verif.Props.C94
import Verif.Props.C95
import Verif.Props.C96
import Verif.Props.C96_more
import Verif.Props.C97
import Verif.Props.C98
import Verif.Props.C98_more
import Verif.Props.C99
