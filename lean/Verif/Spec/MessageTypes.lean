import Verif.Model.Classes
import Verif.Model.Basic
/-
Specification: the protocols' message types and application identifiers, by hand, and the messages they announce (simple class names).
-/
namespace FinProto

/-- Protocol a factory belongs to. -/
def Fac.protocol : Fac → Mod
  | .sample_RootPacket => .sample
  | .sse_SseBinary => .sse
  | .szse_ExecutionConfirm | .szse_ExecutionReport | .szse_NewOrder | .szse_SzseBinary => .szse
  | .risk_RcBinary => .risk
  | _ => .bjse

/-- Numeric message types and the message each announces. -/
def byType (l : List (Nat × String)) : List (Key × String) := l.map fun p => (.int (BitVec.ofNat 32 p.1), p.2)

/-- BJSE: the extension for application `a` is the class `<stem><a>`. -/
def byApplication (stem : String) (apps : List String) : List (Key × String) := apps.map fun a => (.str (js a), stem ++ a)

/-- SZSE: the extension for application `xyz` (business `xy`) is `Extend<side>xy<kind>`, the class named after the message type. -/
def byBusiness (side kind : String) (apps : List (String × String)) : List (Key × String) :=
  apps.map fun a => (.str (js (a.1 ++ a.2)), "Extend" ++ side ++ a.1 ++ kind)

/-- SZSE: the types `<side>xy<kind>` of all businesses `xy` announce the same message. -/
def allBusinesses (side kind : Nat) (name : String) (businesses : List Nat) : List (Nat × String) :=
  businesses.map fun x => (side * 10000 + x * 100 + kind, name)

/-- The message types (frames) or application identifiers (extensions) known by default and the message each announces. -/
def messageTypes : Fac → List (Key × String)
  | .sample_RootPacket => [(.short 1, "BasicPacket"), (.short 2, "StringPacket"), (.short 3, "NestedPacket"), (.short 4, "EmptyPacket")]
  | .sse_SseBinary => byType [(32, "Confirm"), (33, "Heartbeat"), (40, "Logon"), (41, "Logout"), (58, "NewOrderSingle"), (59, "CancelReject"),
      (61, "OrderCancel"), (103, "Report"), (204, "OrderReject"), (206, "ExecRptSync"), (207, "ExecRptSyncRsp"), (208, "ExecRptInfo"),
      (209, "PlatformState"), (210, "ExecRptEndOfStream")]
  | .szse_SzseBinary => byType ([(1, "Logon"), (2, "Logout"), (3, "Heartbeat"), (4, "BusinessReject"), (5, "ReportSynchronization"),
      (6, "PlatformStateInfo"), (7, "ReportFinished"), (9, "PlatformPartition"), (10, "TradingSessionStatus"),
      (104128, "NewOrder"), (204129, "ExecutionConfirm"), (204130, "ExecutionReport"),
      (190007, "OrderCancelRequest"), (290008, "CancelReject")]
    ++ allBusinesses 10 1 "NewOrder" [1, 2, 3, 4, 5, 6, 7, 12, 13, 14, 15, 16, 17, 18, 19, 23, 27, 28, 29, 31, 33, 35, 37, 41, 47, 63]
    ++ allBusinesses 20 2 "ExecutionConfirm"
        [1, 2, 3, 4, 5, 6, 7, 12, 13, 14, 15, 16, 17, 18, 19, 22, 23, 27, 28, 29, 31, 33, 35, 37, 41, 47, 63]
    ++ allBusinesses 20 15 "ExecutionReport" [1, 2, 3, 4, 5, 6, 7, 37, 41, 63])
  | .szse_NewOrder => (.str (js "417"), "Extend104128") :: byBusiness "10" "01" [("01", "0"), ("02", "0"), ("03", "0"), ("05", "1"), ("05", "2"),
      ("06", "0"), ("06", "1"), ("07", "0"), ("15", "0"), ("15", "1"), ("15", "2"), ("16", "0"), ("17", "0"), ("18", "0"), ("18", "1"),
      ("27", "0"), ("27", "1"), ("28", "0"), ("28", "1"), ("29", "0"), ("29", "1"), ("35", "0"), ("35", "1"), ("37", "0"), ("41", "0"),
      ("47", "0"), ("63", "0")]
  | .szse_ExecutionConfirm => (.str (js "417"), "Extend204129") :: byBusiness "20" "02" [("01", "0"), ("02", "0"), ("03", "0"), ("05", "1"),
      ("05", "2"), ("06", "0"), ("06", "1"), ("07", "0"), ("15", "0"), ("15", "1"), ("15", "2"), ("16", "0"), ("17", "0"), ("18", "0"),
      ("18", "1"), ("27", "0"), ("27", "1"), ("28", "0"), ("28", "1"), ("29", "0"), ("29", "1"), ("35", "0"), ("35", "1"), ("37", "0"),
      ("41", "0"), ("47", "0"), ("63", "0")]
  | .szse_ExecutionReport => (.str (js "417"), "Extend204130") :: byBusiness "20" "15" [("01", "0"), ("02", "0"), ("03", "0"), ("05", "1"),
      ("05", "2"), ("05", "6"), ("05", "7"), ("06", "0"), ("06", "1"), ("07", "0"), ("37", "0"), ("41", "0"), ("41", "2"), ("41", "3"),
      ("41", "5"), ("41", "6"), ("47", "0"), ("63", "0")]
  | .bjse_BjseBinary => byType [(1, "Logon"), (2, "Logout"), (3, "Heartbeat"), (5, "ReportSynchronization"), (6, "PlatformStateInfo"),
      (7, "ReportFinished"), (101000, "NewOrder"), (102000, "OrderCancelRequest"), (201000, "CancelReject"), (202010, "ExecutionConfirm"),
      (203010, "ExecutionReport")]
  | .bjse_NewOrder => byApplication "ExtendNewOrder" ["010", "040", "041", "042", "043", "044", "045", "050"]
  | .bjse_ExecutionConfirm => byApplication "ConfirmExtend" ["010", "040", "041", "042", "043", "044", "045", "050"]
  | .bjse_ExecutionReport => byApplication "ReportExtend" ["010", "040", "050"]
  | .bjse_AllegeQuote => byApplication "AllegeQuoteExtend" ["070"]
  | .bjse_Quote => byApplication "QuoteExtend" ["070", "071"]
  | .bjse_QuoteResponse => byApplication "QuoteResponseExtend" ["070"]
  | .bjse_QuoteStatusReport => byApplication "QuoteStatusReportExtend" ["070"]
  | .bjse_TradeCaptureCofirm => byApplication "TradeCaptureCofirmExtend" ["031", "051", "060", "061", "062"]
  | .bjse_TradeCaptureConfirm => byApplication "TradeCaptureConfirmExtend" ["031", "051", "060", "061", "062"]
  | .bjse_TradeCaptureReport => byApplication "TradeCaptureReportExtend" ["031", "051", "060", "061", "062"]
  | .bjse_TradeCaptureReportAck => byApplication "TradeCaptureReportAckExtend" ["031", "051", "060", "061", "062"]
  | .risk_RcBinary => byType [(100101, "NewOrder"), (190007, "OrderCancel"), (200102, "OrderConfirm"), (200115, "ExecutionReport"),
      (290008, "CancelReject"), (800001, "RiskResult")]

end FinProto
