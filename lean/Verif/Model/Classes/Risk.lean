import Verif.Model.IR
/- GENERATED by tools/gen.py from the Java sources in /repo; do not edit. -/

namespace FinProto

/-! ### risk-bin/src/main/java/com/finproto/risk/bin/messages/CancelReject.java:10-154 -/
namespace Risk.CancelReject
/-- Fields, CancelReject.java:11-15. -/
def fields : List (String × FTy) := [("uniqueOrderId", .str), ("uniqueOrigOrderId", .str), ("clOrdId", .str), ("origClOrdId", .str), ("cxlRejReason", .prim .i32)]
/-- Accessors (property, getter field, setter field), CancelReject.java:17-57. -/
def acc : List (String × Nat × Nat) := [("UniqueOrderId", 0, 0), ("UniqueOrigOrderId", 1, 1), ("ClOrdId", 2, 2), ("OrigClOrdId", 3, 3), ("CxlRejReason", 4, 4)]
/-- `encode`, CancelReject.java:57-92. -/
def enc : List EncStmt := [
  .dyn 0 .i32 .i32 .be,  -- 59: uniqueOrderId
  .dyn 1 .i32 .i32 .be,  -- 67: uniqueOrigOrderId
  .dyn 2 .i32 .i32 .be,  -- 75: clOrdId
  .dyn 3 .i32 .i32 .be,  -- 83: origClOrdId
  .num 4 .i32 .be  -- 91: cxlRejReason
]
/-- `decode`, CancelReject.java:94-116. -/
def dec : List DecStmt := [
  .dyn 0 .i32 .be,  -- 96: uniqueOrderId
  .dyn 1 .i32 .be,  -- 101: uniqueOrigOrderId
  .dyn 2 .i32 .be,  -- 106: clOrdId
  .dyn 3 .i32 .be,  -- 110: origClOrdId
  .num 4 .i32 .be  -- 115: cxlRejReason
]
/-- `hashCode`, CancelReject.java:118. -/
def hash : HashBody := .fields [0, 1, 2, 3, 4]
/-- `equals`, CancelReject.java:123. -/
def eqs : List (Nat × Nat) := [(0, 0), (1, 1), (2, 2), (3, 3), (4, 4)]
/-- `toString`, CancelReject.java:139. -/
def str : List StrPart := [.lit "CancelReject [", .lit "uniqueOrderId=", .field 0, .lit ", uniqueOrigOrderId=", .field 1, .lit ", clOrdId=", .field 2, .lit ", origClOrdId=", .field 3, .lit ", cxlRejReason=", .field 4, .lit "]"]
/-- risk-bin/src/main/java/com/finproto/risk/bin/messages/CancelReject.java:10-154 -/
def decl : ClassDecl := ⟨"CancelReject", fields, acc, enc, dec, hash, eqs, str⟩
end Risk.CancelReject

/-! ### risk-bin/src/main/java/com/finproto/risk/bin/messages/ExecutionReport.java:10-156 -/
namespace Risk.ExecutionReport
/-- Fields, ExecutionReport.java:11-16. -/
def fields : List (String × FTy) := [("uniqueOrderId", .str), ("clOrdId", .str), ("ordCnfmId", .str), ("lastPx", .prim .i64), ("lastQty", .prim .i64), ("ordStatus", .str)]
/-- Accessors (property, getter field, setter field), ExecutionReport.java:18-66. -/
def acc : List (String × Nat × Nat) := [("UniqueOrderId", 0, 0), ("ClOrdId", 1, 1), ("OrdCnfmId", 2, 2), ("LastPx", 3, 3), ("LastQty", 4, 4), ("OrdStatus", 5, 5)]
/-- `encode`, ExecutionReport.java:66-95. -/
def enc : List EncStmt := [
  .dyn 0 .i32 .i32 .be,  -- 68: uniqueOrderId
  .dyn 1 .i32 .i32 .be,  -- 76: clOrdId
  .dyn 2 .i32 .i32 .be,  -- 84: ordCnfmId
  .num 3 .i64 .be,  -- 92: lastPx
  .num 4 .i64 .be,  -- 93: lastQty
  .fixed 5 1 0x20 false  -- 94: ordStatus
]
/-- `decode`, ExecutionReport.java:97-115. -/
def dec : List DecStmt := [
  .dyn 0 .i32 .be,  -- 99: uniqueOrderId
  .dyn 1 .i32 .be,  -- 104: clOrdId
  .dyn 2 .i32 .be,  -- 108: ordCnfmId
  .num 3 .i64 .be,  -- 112: lastPx
  .num 4 .i64 .be,  -- 113: lastQty
  .fixed 5 1 0x20 false  -- 114: ordStatus
]
/-- `hashCode`, ExecutionReport.java:117. -/
def hash : HashBody := .fields [0, 1, 2, 3, 4, 5]
/-- `equals`, ExecutionReport.java:122. -/
def eqs : List (Nat × Nat) := [(0, 0), (1, 1), (2, 2), (3, 3), (4, 4), (5, 5)]
/-- `toString`, ExecutionReport.java:139. -/
def str : List StrPart := [.lit "ExecutionReport [", .lit "uniqueOrderId=", .field 0, .lit ", clOrdId=", .field 1, .lit ", ordCnfmId=", .field 2, .lit ", lastPx=", .field 3, .lit ", lastQty=", .field 4, .lit ", ordStatus=", .field 5, .lit "]"]
/-- risk-bin/src/main/java/com/finproto/risk/bin/messages/ExecutionReport.java:10-156 -/
def decl : ClassDecl := ⟨"ExecutionReport", fields, acc, enc, dec, hash, eqs, str⟩
end Risk.ExecutionReport

/-! ### risk-bin/src/main/java/com/finproto/risk/bin/messages/NewOrder.java:10-194 -/
namespace Risk.NewOrder
/-- Fields, NewOrder.java:11-18. -/
def fields : List (String × FTy) := [("uniqueOrderId", .str), ("clOrdId", .str), ("securityId", .str), ("side", .str), ("price", .prim .i64), ("orderQty", .prim .i64), ("ordType", .str), ("account", .str)]
/-- Accessors (property, getter field, setter field), NewOrder.java:20-84. -/
def acc : List (String × Nat × Nat) := [("UniqueOrderId", 0, 0), ("ClOrdId", 1, 1), ("SecurityId", 2, 2), ("Side", 3, 3), ("Price", 4, 4), ("OrderQty", 5, 5), ("OrdType", 6, 6), ("Account", 7, 7)]
/-- `encode`, NewOrder.java:84-121. -/
def enc : List EncStmt := [
  .dyn 0 .i32 .i32 .be,  -- 86: uniqueOrderId
  .dyn 1 .i32 .i32 .be,  -- 94: clOrdId
  .dyn 2 .i32 .i32 .be,  -- 102: securityId
  .fixed 3 1 0x20 false,  -- 110: side
  .num 4 .i64 .be,  -- 111: price
  .num 5 .i64 .be,  -- 112: orderQty
  .fixed 6 1 0x20 false,  -- 113: ordType
  .dyn 7 .i32 .i32 .be  -- 114: account
]
/-- `decode`, NewOrder.java:123-146. -/
def dec : List DecStmt := [
  .dyn 0 .i32 .be,  -- 125: uniqueOrderId
  .dyn 1 .i32 .be,  -- 130: clOrdId
  .dyn 2 .i32 .be,  -- 134: securityId
  .fixed 3 1 0x20 false,  -- 138: side
  .num 4 .i64 .be,  -- 139: price
  .num 5 .i64 .be,  -- 140: orderQty
  .fixed 6 1 0x20 false,  -- 141: ordType
  .dyn 7 .i32 .be  -- 142: account
]
/-- `hashCode`, NewOrder.java:148. -/
def hash : HashBody := .fields [0, 1, 2, 3, 4, 5, 6, 7]
/-- `equals`, NewOrder.java:154. -/
def eqs : List (Nat × Nat) := [(0, 0), (1, 1), (2, 2), (3, 3), (4, 4), (5, 5), (6, 6), (7, 7)]
/-- `toString`, NewOrder.java:173. -/
def str : List StrPart := [.lit "NewOrder [", .lit "uniqueOrderId=", .field 0, .lit ", clOrdId=", .field 1, .lit ", securityId=", .field 2, .lit ", side=", .field 3, .lit ", price=", .field 4, .lit ", orderQty=", .field 5, .lit ", ordType=", .field 6, .lit ", account=", .field 7, .lit "]"]
/-- risk-bin/src/main/java/com/finproto/risk/bin/messages/NewOrder.java:10-194 -/
def decl : ClassDecl := ⟨"NewOrder", fields, acc, enc, dec, hash, eqs, str⟩
end Risk.NewOrder

/-! ### risk-bin/src/main/java/com/finproto/risk/bin/messages/OrderCancel.java:10-163 -/
namespace Risk.OrderCancel
/-- Fields, OrderCancel.java:11-15. -/
def fields : List (String × FTy) := [("uniqueOrderId", .str), ("uniqueOrigOrderId", .str), ("clOrdId", .str), ("origClOrdId", .str), ("securityId", .str)]
/-- Accessors (property, getter field, setter field), OrderCancel.java:17-57. -/
def acc : List (String × Nat × Nat) := [("UniqueOrderId", 0, 0), ("UniqueOrigOrderId", 1, 1), ("ClOrdId", 2, 2), ("OrigClOrdId", 3, 3), ("SecurityId", 4, 4)]
/-- `encode`, OrderCancel.java:57-98. -/
def enc : List EncStmt := [
  .dyn 0 .i32 .i32 .be,  -- 59: uniqueOrderId
  .dyn 1 .i32 .i32 .be,  -- 67: uniqueOrigOrderId
  .dyn 2 .i32 .i32 .be,  -- 75: clOrdId
  .dyn 3 .i32 .i32 .be,  -- 83: origClOrdId
  .dyn 4 .i32 .i32 .be  -- 91: securityId
]
/-- `decode`, OrderCancel.java:100-125. -/
def dec : List DecStmt := [
  .dyn 0 .i32 .be,  -- 102: uniqueOrderId
  .dyn 1 .i32 .be,  -- 107: uniqueOrigOrderId
  .dyn 2 .i32 .be,  -- 112: clOrdId
  .dyn 3 .i32 .be,  -- 116: origClOrdId
  .dyn 4 .i32 .be  -- 121: securityId
]
/-- `hashCode`, OrderCancel.java:127. -/
def hash : HashBody := .fields [0, 1, 2, 3, 4]
/-- `equals`, OrderCancel.java:132. -/
def eqs : List (Nat × Nat) := [(0, 0), (1, 1), (2, 2), (3, 3), (4, 4)]
/-- `toString`, OrderCancel.java:148. -/
def str : List StrPart := [.lit "OrderCancel [", .lit "uniqueOrderId=", .field 0, .lit ", uniqueOrigOrderId=", .field 1, .lit ", clOrdId=", .field 2, .lit ", origClOrdId=", .field 3, .lit ", securityId=", .field 4, .lit "]"]
/-- risk-bin/src/main/java/com/finproto/risk/bin/messages/OrderCancel.java:10-163 -/
def decl : ClassDecl := ⟨"OrderCancel", fields, acc, enc, dec, hash, eqs, str⟩
end Risk.OrderCancel

/-! ### risk-bin/src/main/java/com/finproto/risk/bin/messages/OrderConfirm.java:10-167 -/
namespace Risk.OrderConfirm
/-- Fields, OrderConfirm.java:11-16. -/
def fields : List (String × FTy) := [("uniqueOrderId", .str), ("uniqueOrigOrderId", .str), ("clOrdId", .str), ("execType", .str), ("ordRejReason", .prim .i32), ("ordCnfmId", .str)]
/-- Accessors (property, getter field, setter field), OrderConfirm.java:18-66. -/
def acc : List (String × Nat × Nat) := [("UniqueOrderId", 0, 0), ("UniqueOrigOrderId", 1, 1), ("ClOrdId", 2, 2), ("ExecType", 3, 3), ("OrdRejReason", 4, 4), ("OrdCnfmId", 5, 5)]
/-- `encode`, OrderConfirm.java:66-101. -/
def enc : List EncStmt := [
  .dyn 0 .i32 .i32 .be,  -- 68: uniqueOrderId
  .dyn 1 .i32 .i32 .be,  -- 76: uniqueOrigOrderId
  .dyn 2 .i32 .i32 .be,  -- 84: clOrdId
  .fixed 3 1 0x20 false,  -- 92: execType
  .num 4 .i32 .be,  -- 93: ordRejReason
  .dyn 5 .i32 .i32 .be  -- 94: ordCnfmId
]
/-- `decode`, OrderConfirm.java:103-125. -/
def dec : List DecStmt := [
  .dyn 0 .i32 .be,  -- 105: uniqueOrderId
  .dyn 1 .i32 .be,  -- 110: uniqueOrigOrderId
  .dyn 2 .i32 .be,  -- 115: clOrdId
  .fixed 3 1 0x20 false,  -- 119: execType
  .num 4 .i32 .be,  -- 120: ordRejReason
  .dyn 5 .i32 .be  -- 121: ordCnfmId
]
/-- `hashCode`, OrderConfirm.java:127. -/
def hash : HashBody := .fields [0, 1, 2, 3, 4, 5]
/-- `equals`, OrderConfirm.java:133. -/
def eqs : List (Nat × Nat) := [(0, 0), (1, 1), (2, 2), (3, 3), (4, 4), (5, 5)]
/-- `toString`, OrderConfirm.java:150. -/
def str : List StrPart := [.lit "OrderConfirm [", .lit "uniqueOrderId=", .field 0, .lit ", uniqueOrigOrderId=", .field 1, .lit ", clOrdId=", .field 2, .lit ", execType=", .field 3, .lit ", ordRejReason=", .field 4, .lit ", ordCnfmId=", .field 5, .lit "]"]
/-- risk-bin/src/main/java/com/finproto/risk/bin/messages/OrderConfirm.java:10-167 -/
def decl : ClassDecl := ⟨"OrderConfirm", fields, acc, enc, dec, hash, eqs, str⟩
end Risk.OrderConfirm

/-! ### risk-bin/src/main/java/com/finproto/risk/bin/messages/RcBinary.java:11-141 -/
namespace Risk.RcBinary
/-- Fields, RcBinary.java:12-15. -/
def fields : List (String × FTy) := [("msgType", .prim .i32), ("version", .prim .i32), ("msgBodyLen", .prim .i32), ("body", .codec)]
/-- Accessors (property, getter field, setter field), RcBinary.java:17-49. -/
def acc : List (String × Nat × Nat) := [("MsgType", 0, 0), ("Version", 1, 1), ("MsgBodyLen", 2, 2), ("Body", 3, 3)]
/-- `encode`, RcBinary.java:49-63. -/
def enc : List EncStmt := [
  .num 0 .i32 .be,  -- 51: msgType
  .num 1 .i32 .be,  -- 52: version
  .save 0,  -- 53: int msgBodyLenPos
  .zero .i32 .be,  -- 54: write(0)
  .save 1,  -- 56: int bodyStart
  .objOpt 3,  -- 57: body
  .save 2,  -- 60: int bodyEnd
  .setLen 2 2 1,  -- 61: msgBodyLen = bodyEnd - bodyStart
  .patch 0 2 .i32 .be  -- 62: set(msgBodyLenPos, msgBodyLen)
]
/-- `decode`, RcBinary.java:65-72. -/
def dec : List DecStmt := [
  .num 0 .i32 .be,  -- 67: msgType
  .num 1 .i32 .be,  -- 68: version
  .num 2 .i32 .be,  -- 69: msgBodyLen
  .create 3 .risk_RcBinary 0,  -- 70: body
  .call 3  -- 71: body
]
/-- `hashCode`, RcBinary.java:74. -/
def hash : HashBody := .fields [0, 1, 2, 3]
/-- `equals`, RcBinary.java:79. -/
def eqs : List (Nat × Nat) := [(0, 0), (1, 1), (2, 2), (3, 3)]
/-- `toString`, RcBinary.java:94. -/
def str : List StrPart := [.lit "RcBinary [", .lit "msgType=", .field 0, .lit ", version=", .field 1, .lit ", msgBodyLen=", .field 2, .lit ", body=", .field 3, .lit "]"]
/-- risk-bin/src/main/java/com/finproto/risk/bin/messages/RcBinary.java:11-141 -/
def decl : ClassDecl := ⟨"RcBinary", fields, acc, enc, dec, hash, eqs, str⟩
end Risk.RcBinary

/-! ### risk-bin/src/main/java/com/finproto/risk/bin/messages/RiskResult.java:10-103 -/
namespace Risk.RiskResult
/-- Fields, RiskResult.java:11-13. -/
def fields : List (String × FTy) := [("uniqueOrderId", .str), ("riskStatus", .prim .i8), ("riskReason", .str)]
/-- Accessors (property, getter field, setter field), RiskResult.java:15-39. -/
def acc : List (String × Nat × Nat) := [("UniqueOrderId", 0, 0), ("RiskStatus", 1, 1), ("RiskReason", 2, 2)]
/-- `encode`, RiskResult.java:39-57. -/
def enc : List EncStmt := [
  .dyn 0 .i32 .i32 .be,  -- 41: uniqueOrderId
  .num 1 .i8 .be,  -- 49: riskStatus
  .dyn 2 .i32 .i32 .be  -- 50: riskReason
]
/-- `decode`, RiskResult.java:59-71. -/
def dec : List DecStmt := [
  .dyn 0 .i32 .be,  -- 61: uniqueOrderId
  .num 1 .i8 .be,  -- 66: riskStatus
  .dyn 2 .i32 .be  -- 67: riskReason
]
/-- `hashCode`, RiskResult.java:73. -/
def hash : HashBody := .fields [0, 1, 2]
/-- `equals`, RiskResult.java:78. -/
def eqs : List (Nat × Nat) := [(0, 0), (1, 1), (2, 2)]
/-- `toString`, RiskResult.java:92. -/
def str : List StrPart := [.lit "RiskResult [", .lit "uniqueOrderId=", .field 0, .lit ", riskStatus=", .field 1, .lit ", riskReason=", .field 2, .lit "]"]
/-- risk-bin/src/main/java/com/finproto/risk/bin/messages/RiskResult.java:10-103 -/
def decl : ClassDecl := ⟨"RiskResult", fields, acc, enc, dec, hash, eqs, str⟩
end Risk.RiskResult

end FinProto
