import Verif.Check.RepoTests
import Verif.Lemmas.Args
import Verif.Lemmas.BusLive
import Verif.Lemmas.Float
import Verif.Lemmas.Flow
import Verif.Lemmas.FlowInv
import Verif.Lemmas.LockWait
import Verif.Lemmas.ManyAccounts
import Verif.Lemmas.NoAccount
import Verif.Lemmas.Numbers
import Verif.Lemmas.Options
import Verif.Lemmas.Process
import Verif.Lemmas.RuntimeDir
import Verif.Lemmas.Startup
import Verif.Lemmas.StopArgs
import Verif.Lemmas.TextBad
import Verif.Lemmas.TextFile
import Verif.Lemmas.TextSpec
import Verif.Lemmas.TextStrict
import Verif.Lemmas.Times
import Verif.Model.Args
import Verif.Model.BuiltIn
import Verif.Model.BusLive
import Verif.Model.Launch
import Verif.Model.LockWait
import Verif.Model.Periods
import Verif.Model.Process
import Verif.Model.RuntimeDir
import Verif.Model.Startup
import Verif.Model.TextFile
import Verif.Props.C01_Queue
import Verif.Props.C02_Threads
import Verif.Props.C03_Loop
import Verif.Props.C05_Order
import Verif.Props.C07_Daily
import Verif.Props.C09_TimeExpr
import Verif.Props.C11_Timers
import Verif.Props.C12_Strategy
import Verif.Props.C16_Reschedule
import Verif.Props.C17_Api
import Verif.Props.C18_Gate
import Verif.Props.C18_Started
import Verif.Props.C21_Exact
import Verif.Props.C23_Started
import Verif.Props.C26_Positions
import Verif.Props.C29_Orders
import Verif.Props.C30_Told
import Verif.Props.C33_Exact
import Verif.Props.C34_Code
import Verif.Props.C35_Exact
import Verif.Props.C36_Again
import Verif.Props.C36_OrderSync
import Verif.Props.C40_Persist
import Verif.Props.C42_Restart
import Verif.Props.C43_Exact
import Verif.Props.C44_Writers
import Verif.Props.C45_Retry
import Verif.Props.C46_Balance
import Verif.Props.C48_Cli
import Verif.Props.C49_Tasks
import Verif.Props.C52_Config
import Verif.Props.C53_Millis
import Verif.Props.C61_DataFile
import Verif.Props.C63_Run
import Verif.Props.C63_Schedule
import Verif.Props.C64_Flow
import Verif.Props.C64_Started
import Verif.Props.C65_Lives
import Verif.Props.C65_Orders
import Verif.Props.C65_Process
import Verif.Props.C65_Started
import Verif.Props.C66_Numbering
import Verif.Props.C66_Priority
import Verif.Props.C67_Launch
import Verif.Props.C72_Failure
import Verif.Props.C73_CommandLine
import Verif.Props.C75_Commands
import Verif.Props.C76_Options
import Verif.Props.C78_BadPeriod
import Verif.Props.C78_BadTime
import Verif.Props.C78_ManyOptions
import Verif.Props.C78_NoAccount
import Verif.Props.C78_Startup
import Verif.Props.C79_Times
import Verif.Props.C80_Numbers
import Verif.Props.C81_BusLive
import Verif.Props.C82_Blocked
import Verif.Props.C82_Cut
import Verif.Props.C82_Encoding
import Verif.Props.C82_Strict
import Verif.Props.C83_ManyAccounts
import Verif.Props.C84_Clock
import Verif.Props.C85_Log
import Verif.Props.C86_Show
import Verif.Props.C88_Reason
import Verif.Props.C88_Started
import Verif.Props.C89_Portfolio
import Verif.Props.C90_Refusals
import Verif.Props.C90_Strategy
import Verif.Props.C90_Tables
import Verif.Props.C91_Days
import Verif.Props.C91_Office
import Verif.Props.C92_Broker
import Verif.Props.C92_Days
import Verif.Props.C93_LockWait
import Verif.Props.C94_RuntimeDir
import Verif.Props.C95_Reload
import Verif.Props.C96_GateSetup
import Verif.Props.C96_Start
import Verif.Props.C97_Arithmetic
import Verif.Props.C97_Money
import Verif.Props.C97_Repr
import Verif.Props.C98_Days
import Verif.Props.C99_Files
import Verif.Props.C99_Orders
import Verif.Props.C99_Started
import Verif.Props.C99_UserView
import Verif.Py.Float
import Verif.Spec.Asked
import Verif.Spec.BusLive
import Verif.Spec.CommandLine
import Verif.Spec.Flow
import Verif.Spec.LockWait
import Verif.Spec.ManyAccounts
import Verif.Spec.Millis
import Verif.Spec.Numbers
import Verif.Spec.Options
import Verif.Spec.Process
import Verif.Spec.Shown
import Verif.Spec.Startup
import Verif.Spec.Tables
import Verif.Spec.TextFile
import Verif.Spec.Times
