import Verif.Model.IR
/- GENERATED by tools/gen.py from the Java sources in /repo; do not edit. -/

namespace FinProto

/-! ### sse-bin/src/main/java/com/finproto/sse/bin/messages/CancelReject.java:8-234 -/
namespace Sse.CancelReject
/-- Fields, CancelReject.java:9-21. -/
def fields : List (String × FTy) := [("pbu", .str), ("setId", .prim .i32), ("reportIndex", .prim .i64), ("bizId", .prim .i32), ("bizPbu", .str), ("clOrdId", .str), ("securityId", .str), ("origClOrdId", .str), ("branchId", .str), ("cxlRejReason", .prim .i32), ("tradeDate", .prim .i32), ("transactTime", .prim .i64), ("userInfo", .str)]
/-- Accessors (property, getter field, setter field), CancelReject.java:23-127. -/
def acc : List (String × Nat × Nat) := [("Pbu", 0, 0), ("SetId", 1, 1), ("ReportIndex", 2, 2), ("BizId", 3, 3), ("BizPbu", 4, 4), ("ClOrdId", 5, 5), ("SecurityId", 6, 6), ("OrigClOrdId", 7, 7), ("BranchId", 8, 8), ("CxlRejReason", 9, 9), ("TradeDate", 10, 10), ("TransactTime", 11, 11), ("UserInfo", 12, 12)]
/-- `encode`, CancelReject.java:127-142. -/
def enc : List EncStmt := [
  .fixed 0 8 0x20 false,  -- 129: pbu
  .num 1 .i32 .be,  -- 130: setId
  .num 2 .i64 .be,  -- 131: reportIndex
  .num 3 .i32 .be,  -- 132: bizId
  .fixed 4 8 0x20 false,  -- 133: bizPbu
  .fixed 5 10 0x20 false,  -- 134: clOrdId
  .fixed 6 12 0x20 false,  -- 135: securityId
  .fixed 7 10 0x20 false,  -- 136: origClOrdId
  .fixed 8 8 0x20 false,  -- 137: branchId
  .num 9 .i32 .be,  -- 138: cxlRejReason
  .num 10 .i32 .be,  -- 139: tradeDate
  .num 11 .i64 .be,  -- 140: transactTime
  .fixed 12 32 0x20 false  -- 141: userInfo
]
/-- `decode`, CancelReject.java:144-159. -/
def dec : List DecStmt := [
  .fixed 0 8 0x20 false,  -- 146: pbu
  .num 1 .i32 .be,  -- 147: setId
  .num 2 .i64 .be,  -- 148: reportIndex
  .num 3 .i32 .be,  -- 149: bizId
  .fixed 4 8 0x20 false,  -- 150: bizPbu
  .fixed 5 10 0x20 false,  -- 151: clOrdId
  .fixed 6 12 0x20 false,  -- 152: securityId
  .fixed 7 10 0x20 false,  -- 153: origClOrdId
  .fixed 8 8 0x20 false,  -- 154: branchId
  .num 9 .i32 .be,  -- 155: cxlRejReason
  .num 10 .i32 .be,  -- 156: tradeDate
  .num 11 .i64 .be,  -- 157: transactTime
  .fixed 12 32 0x20 false  -- 158: userInfo
]
/-- `hashCode`, CancelReject.java:161. -/
def hash : HashBody := .fields [0, 1, 2, 3, 4, 5, 6, 7, 8, 9, 10, 11, 12]
/-- `equals`, CancelReject.java:179. -/
def eqs : List (Nat × Nat) := [(0, 0), (1, 1), (2, 2), (3, 3), (4, 4), (5, 5), (6, 6), (7, 7), (8, 8), (9, 9), (10, 10), (11, 11), (12, 12)]
/-- `toString`, CancelReject.java:203. -/
def str : List StrPart := [.lit "CancelReject [", .lit "pbu=", .field 0, .lit ", setId=", .field 1, .lit ", reportIndex=", .field 2, .lit ", bizId=", .field 3, .lit ", bizPbu=", .field 4, .lit ", clOrdId=", .field 5, .lit ", securityId=", .field 6, .lit ", origClOrdId=", .field 7, .lit ", branchId=", .field 8, .lit ", cxlRejReason=", .field 9, .lit ", tradeDate=", .field 10, .lit ", transactTime=", .field 11, .lit ", userInfo=", .field 12, .lit "]"]
/-- sse-bin/src/main/java/com/finproto/sse/bin/messages/CancelReject.java:8-234 -/
def decl : ClassDecl := ⟨"CancelReject", fields, acc, enc, dec, hash, eqs, str⟩
end Sse.CancelReject

/-! ### sse-bin/src/main/java/com/finproto/sse/bin/messages/Confirm.java:8-459 -/
namespace Sse.Confirm
/-- Fields, Confirm.java:9-36. -/
def fields : List (String × FTy) := [("pbu", .str), ("setId", .prim .i32), ("reportIndex", .prim .i64), ("bizId", .prim .i32), ("execType", .str), ("bizPbu", .str), ("clOrdId", .str), ("securityId", .str), ("account", .str), ("ownerType", .prim .i8), ("side", .str), ("price", .prim .i64), ("orderQty", .prim .i64), ("leavesQty", .prim .i64), ("cxlQty", .prim .i64), ("ordType", .str), ("timeInForce", .str), ("ordStatus", .str), ("creditTag", .str), ("origClOrdId", .str), ("clearingFirm", .str), ("branchId", .str), ("ordRejReason", .prim .i32), ("ordCnfmId", .str), ("origOrdCnfmId", .str), ("tradeDate", .prim .i32), ("transactTime", .prim .i64), ("userInfo", .str)]
/-- Accessors (property, getter field, setter field), Confirm.java:38-262. -/
def acc : List (String × Nat × Nat) := [("Pbu", 0, 0), ("SetId", 1, 1), ("ReportIndex", 2, 2), ("BizId", 3, 3), ("ExecType", 4, 4), ("BizPbu", 5, 5), ("ClOrdId", 6, 6), ("SecurityId", 7, 7), ("Account", 8, 8), ("OwnerType", 9, 9), ("Side", 10, 10), ("Price", 11, 11), ("OrderQty", 12, 12), ("LeavesQty", 13, 13), ("CxlQty", 14, 14), ("OrdType", 15, 15), ("TimeInForce", 16, 16), ("OrdStatus", 17, 17), ("CreditTag", 18, 18), ("OrigClOrdId", 19, 19), ("ClearingFirm", 20, 20), ("BranchId", 21, 21), ("OrdRejReason", 22, 22), ("OrdCnfmId", 23, 23), ("OrigOrdCnfmId", 24, 24), ("TradeDate", 25, 25), ("TransactTime", 26, 26), ("UserInfo", 27, 27)]
/-- `encode`, Confirm.java:262-292. -/
def enc : List EncStmt := [
  .fixed 0 8 0x20 false,  -- 264: pbu
  .num 1 .i32 .be,  -- 265: setId
  .num 2 .i64 .be,  -- 266: reportIndex
  .num 3 .i32 .be,  -- 267: bizId
  .fixed 4 1 0x20 false,  -- 268: execType
  .fixed 5 8 0x20 false,  -- 269: bizPbu
  .fixed 6 10 0x20 false,  -- 270: clOrdId
  .fixed 7 12 0x20 false,  -- 271: securityId
  .fixed 8 13 0x20 false,  -- 272: account
  .num 9 .i8 .be,  -- 273: ownerType
  .fixed 10 1 0x20 false,  -- 274: side
  .num 11 .i64 .be,  -- 275: price
  .num 12 .i64 .be,  -- 276: orderQty
  .num 13 .i64 .be,  -- 277: leavesQty
  .num 14 .i64 .be,  -- 278: cxlQty
  .fixed 15 1 0x20 false,  -- 279: ordType
  .fixed 16 1 0x20 false,  -- 280: timeInForce
  .fixed 17 1 0x20 false,  -- 281: ordStatus
  .fixed 18 2 0x20 false,  -- 282: creditTag
  .fixed 19 10 0x20 false,  -- 283: origClOrdId
  .fixed 20 8 0x20 false,  -- 284: clearingFirm
  .fixed 21 8 0x20 false,  -- 285: branchId
  .num 22 .i32 .be,  -- 286: ordRejReason
  .fixed 23 16 0x20 false,  -- 287: ordCnfmId
  .fixed 24 16 0x20 false,  -- 288: origOrdCnfmId
  .num 25 .i32 .be,  -- 289: tradeDate
  .num 26 .i64 .be,  -- 290: transactTime
  .fixed 27 32 0x20 false  -- 291: userInfo
]
/-- `decode`, Confirm.java:294-324. -/
def dec : List DecStmt := [
  .fixed 0 8 0x20 false,  -- 296: pbu
  .num 1 .i32 .be,  -- 297: setId
  .num 2 .i64 .be,  -- 298: reportIndex
  .num 3 .i32 .be,  -- 299: bizId
  .fixed 4 1 0x20 false,  -- 300: execType
  .fixed 5 8 0x20 false,  -- 301: bizPbu
  .fixed 6 10 0x20 false,  -- 302: clOrdId
  .fixed 7 12 0x20 false,  -- 303: securityId
  .fixed 8 13 0x20 false,  -- 304: account
  .num 9 .i8 .be,  -- 305: ownerType
  .fixed 10 1 0x20 false,  -- 306: side
  .num 11 .i64 .be,  -- 307: price
  .num 12 .i64 .be,  -- 308: orderQty
  .num 13 .i64 .be,  -- 309: leavesQty
  .num 14 .i64 .be,  -- 310: cxlQty
  .fixed 15 1 0x20 false,  -- 311: ordType
  .fixed 16 1 0x20 false,  -- 312: timeInForce
  .fixed 17 1 0x20 false,  -- 313: ordStatus
  .fixed 18 2 0x20 false,  -- 314: creditTag
  .fixed 19 10 0x20 false,  -- 315: origClOrdId
  .fixed 20 8 0x20 false,  -- 316: clearingFirm
  .fixed 21 8 0x20 false,  -- 317: branchId
  .num 22 .i32 .be,  -- 318: ordRejReason
  .fixed 23 16 0x20 false,  -- 319: ordCnfmId
  .fixed 24 16 0x20 false,  -- 320: origOrdCnfmId
  .num 25 .i32 .be,  -- 321: tradeDate
  .num 26 .i64 .be,  -- 322: transactTime
  .fixed 27 32 0x20 false  -- 323: userInfo
]
/-- `hashCode`, Confirm.java:326. -/
def hash : HashBody := .fields [0, 1, 2, 3, 4, 5, 6, 7, 8, 9, 10, 11, 12, 13, 14, 15, 16, 17, 18, 19, 20, 21, 22, 23, 24, 25, 26, 27]
/-- `equals`, Confirm.java:359. -/
def eqs : List (Nat × Nat) := [(0, 0), (1, 1), (2, 2), (3, 3), (4, 4), (5, 5), (6, 6), (7, 7), (8, 8), (9, 9), (10, 10), (11, 11), (12, 12), (13, 13), (14, 14), (15, 15), (16, 16), (17, 17), (18, 18), (19, 19), (20, 20), (21, 21), (22, 22), (23, 23), (24, 24), (25, 25), (26, 26), (27, 27)]
/-- `toString`, Confirm.java:398. -/
def str : List StrPart := [.lit "Confirm [", .lit "pbu=", .field 0, .lit ", setId=", .field 1, .lit ", reportIndex=", .field 2, .lit ", bizId=", .field 3, .lit ", execType=", .field 4, .lit ", bizPbu=", .field 5, .lit ", clOrdId=", .field 6, .lit ", securityId=", .field 7, .lit ", account=", .field 8, .lit ", ownerType=", .field 9, .lit ", side=", .field 10, .lit ", price=", .field 11, .lit ", orderQty=", .field 12, .lit ", leavesQty=", .field 13, .lit ", cxlQty=", .field 14, .lit ", ordType=", .field 15, .lit ", timeInForce=", .field 16, .lit ", ordStatus=", .field 17, .lit ", creditTag=", .field 18, .lit ", origClOrdId=", .field 19, .lit ", clearingFirm=", .field 20, .lit ", branchId=", .field 21, .lit ", ordRejReason=", .field 22, .lit ", ordCnfmId=", .field 23, .lit ", origOrdCnfmId=", .field 24, .lit ", tradeDate=", .field 25, .lit ", transactTime=", .field 26, .lit ", userInfo=", .field 27, .lit "]"]
/-- sse-bin/src/main/java/com/finproto/sse/bin/messages/Confirm.java:8-459 -/
def decl : ClassDecl := ⟨"Confirm", fields, acc, enc, dec, hash, eqs, str⟩
end Sse.Confirm

/-! ### sse-bin/src/main/java/com/finproto/sse/bin/messages/ExecRptEndOfStream.java:8-81 -/
namespace Sse.ExecRptEndOfStream
/-- Fields, ExecRptEndOfStream.java:9-11. -/
def fields : List (String × FTy) := [("pbu", .str), ("setId", .prim .i32), ("endReportIndex", .prim .i64)]
/-- Accessors (property, getter field, setter field), ExecRptEndOfStream.java:13-37. -/
def acc : List (String × Nat × Nat) := [("Pbu", 0, 0), ("SetId", 1, 1), ("EndReportIndex", 2, 2)]
/-- `encode`, ExecRptEndOfStream.java:37-42. -/
def enc : List EncStmt := [
  .fixed 0 8 0x20 false,  -- 39: pbu
  .num 1 .i32 .be,  -- 40: setId
  .num 2 .i64 .be  -- 41: endReportIndex
]
/-- `decode`, ExecRptEndOfStream.java:44-49. -/
def dec : List DecStmt := [
  .fixed 0 8 0x20 false,  -- 46: pbu
  .num 1 .i32 .be,  -- 47: setId
  .num 2 .i64 .be  -- 48: endReportIndex
]
/-- `hashCode`, ExecRptEndOfStream.java:51. -/
def hash : HashBody := .fields [0, 1, 2]
/-- `equals`, ExecRptEndOfStream.java:56. -/
def eqs : List (Nat × Nat) := [(0, 0), (1, 1), (2, 2)]
/-- `toString`, ExecRptEndOfStream.java:70. -/
def str : List StrPart := [.lit "ExecRptEndOfStream [", .lit "pbu=", .field 0, .lit ", setId=", .field 1, .lit ", endReportIndex=", .field 2, .lit "]"]
/-- sse-bin/src/main/java/com/finproto/sse/bin/messages/ExecRptEndOfStream.java:8-81 -/
def decl : ClassDecl := ⟨"ExecRptEndOfStream", fields, acc, enc, dec, hash, eqs, str⟩
end Sse.ExecRptEndOfStream

/-! ### sse-bin/src/main/java/com/finproto/sse/bin/messages/ExecRptInfo.java:10-109 -/
namespace Sse.ExecRptInfo
/-- Fields, ExecRptInfo.java:11-13. -/
def fields : List (String × FTy) := [("platformId", .prim .i16), ("pbu", .list (.str)), ("setId", .list (.prim .i32))]
/-- Accessors (property, getter field, setter field), ExecRptInfo.java:15-39. -/
def acc : List (String × Nat × Nat) := [("PlatformId", 0, 0), ("Pbu", 1, 1), ("SetId", 2, 2)]
/-- `encode`, ExecRptInfo.java:39-58. -/
def enc : List EncStmt := [
  .num 0 .i16 .be,  -- 41: platformId
  .list 1 .i16 .i16 .be (.fixed 8 0x20 false),  -- 48: pbu
  .list 2 .i16 .i16 .be (.num .i32 .be)  -- 56: setId
]
/-- `decode`, ExecRptInfo.java:60-77. -/
def dec : List DecStmt := [
  .num 0 .i16 .be,  -- 62: platformId
  .list 1 .i16 .be (.fixed 8 0x20 false),  -- 68: pbu
  .list 2 .i16 .be (.num .i32 .be)  -- 75: setId
]
/-- `hashCode`, ExecRptInfo.java:79. -/
def hash : HashBody := .fields [0, 1, 2]
/-- `equals`, ExecRptInfo.java:84. -/
def eqs : List (Nat × Nat) := [(0, 0), (1, 1), (2, 2)]
/-- `toString`, ExecRptInfo.java:98. -/
def str : List StrPart := [.lit "ExecRptInfo [", .lit "platformId=", .field 0, .lit ", pbu=", .field 1, .lit ", setId=", .field 2, .lit "]"]
/-- sse-bin/src/main/java/com/finproto/sse/bin/messages/ExecRptInfo.java:10-109 -/
def decl : ClassDecl := ⟨"ExecRptInfo", fields, acc, enc, dec, hash, eqs, str⟩
end Sse.ExecRptInfo

/-! ### sse-bin/src/main/java/com/finproto/sse/bin/messages/ExecRptSync.java:10-143 -/
namespace Sse.ExecRptSync
/-- Fields, ExecRptSync.java:11-11. -/
def fields : List (String × FTy) := [("subExecRptSync", .list (.obj .sse_ExecRptSync_SubExecRptSync))]
/-- Accessors (property, getter field, setter field), ExecRptSync.java:13-21. -/
def acc : List (String × Nat × Nat) := [("SubExecRptSync", 0, 0)]
/-- `encode`, ExecRptSync.java:21-31. -/
def enc : List EncStmt := [
  .list 0 .i16 .i16 .be (.obj)  -- 29: subExecRptSync
]
/-- `decode`, ExecRptSync.java:33-44. -/
def dec : List DecStmt := [
  .list 0 .i16 .be (.obj .sse_ExecRptSync_SubExecRptSync)  -- 42: subExecRptSync
]
/-- `hashCode`, ExecRptSync.java:46. -/
def hash : HashBody := .fields [0]
/-- `equals`, ExecRptSync.java:51. -/
def eqs : List (Nat × Nat) := [(0, 0)]
/-- `toString`, ExecRptSync.java:63. -/
def str : List StrPart := [.lit "ExecRptSync [", .lit "subExecRptSync=", .field 0, .lit "]"]
/-- sse-bin/src/main/java/com/finproto/sse/bin/messages/ExecRptSync.java:10-143 -/
def decl : ClassDecl := ⟨"ExecRptSync", fields, acc, enc, dec, hash, eqs, str⟩
end Sse.ExecRptSync

/-! ### sse-bin/src/main/java/com/finproto/sse/bin/messages/ExecRptSync.java:69-142 -/
namespace Sse.ExecRptSync_SubExecRptSync
/-- Fields, ExecRptSync.java:70-72. -/
def fields : List (String × FTy) := [("pbu", .str), ("setId", .prim .i32), ("beginReportIndex", .prim .i64)]
/-- Accessors (property, getter field, setter field), ExecRptSync.java:74-98. -/
def acc : List (String × Nat × Nat) := [("Pbu", 0, 0), ("SetId", 1, 1), ("BeginReportIndex", 2, 2)]
/-- `encode`, ExecRptSync.java:98-103. -/
def enc : List EncStmt := [
  .fixed 0 8 0x20 false,  -- 100: pbu
  .num 1 .i32 .be,  -- 101: setId
  .num 2 .i64 .be  -- 102: beginReportIndex
]
/-- `decode`, ExecRptSync.java:105-110. -/
def dec : List DecStmt := [
  .fixed 0 8 0x20 false,  -- 107: pbu
  .num 1 .i32 .be,  -- 108: setId
  .num 2 .i64 .be  -- 109: beginReportIndex
]
/-- `hashCode`, ExecRptSync.java:112. -/
def hash : HashBody := .fields [0, 1, 2]
/-- `equals`, ExecRptSync.java:117. -/
def eqs : List (Nat × Nat) := [(0, 0), (1, 1), (2, 2)]
/-- `toString`, ExecRptSync.java:131. -/
def str : List StrPart := [.lit "SubExecRptSync [", .lit "pbu=", .field 0, .lit ", setId=", .field 1, .lit ", beginReportIndex=", .field 2, .lit "]"]
/-- sse-bin/src/main/java/com/finproto/sse/bin/messages/ExecRptSync.java:69-142 -/
def decl : ClassDecl := ⟨"SubExecRptSync", fields, acc, enc, dec, hash, eqs, str⟩
end Sse.ExecRptSync_SubExecRptSync

/-! ### sse-bin/src/main/java/com/finproto/sse/bin/messages/ExecRptSyncRsp.java:10-185 -/
namespace Sse.ExecRptSyncRsp
/-- Fields, ExecRptSyncRsp.java:11-11. -/
def fields : List (String × FTy) := [("subExecRptSyncRsp", .list (.obj .sse_ExecRptSyncRsp_SubExecRptSyncRsp))]
/-- Accessors (property, getter field, setter field), ExecRptSyncRsp.java:13-21. -/
def acc : List (String × Nat × Nat) := [("SubExecRptSyncRsp", 0, 0)]
/-- `encode`, ExecRptSyncRsp.java:21-31. -/
def enc : List EncStmt := [
  .list 0 .i16 .i16 .be (.obj)  -- 29: subExecRptSyncRsp
]
/-- `decode`, ExecRptSyncRsp.java:33-44. -/
def dec : List DecStmt := [
  .list 0 .i16 .be (.obj .sse_ExecRptSyncRsp_SubExecRptSyncRsp)  -- 42: subExecRptSyncRsp
]
/-- `hashCode`, ExecRptSyncRsp.java:46. -/
def hash : HashBody := .fields [0]
/-- `equals`, ExecRptSyncRsp.java:51. -/
def eqs : List (Nat × Nat) := [(0, 0)]
/-- `toString`, ExecRptSyncRsp.java:63. -/
def str : List StrPart := [.lit "ExecRptSyncRsp [", .lit "subExecRptSyncRsp=", .field 0, .lit "]"]
/-- sse-bin/src/main/java/com/finproto/sse/bin/messages/ExecRptSyncRsp.java:10-185 -/
def decl : ClassDecl := ⟨"ExecRptSyncRsp", fields, acc, enc, dec, hash, eqs, str⟩
end Sse.ExecRptSyncRsp

/-! ### sse-bin/src/main/java/com/finproto/sse/bin/messages/ExecRptSyncRsp.java:69-184 -/
namespace Sse.ExecRptSyncRsp_SubExecRptSyncRsp
/-- Fields, ExecRptSyncRsp.java:70-75. -/
def fields : List (String × FTy) := [("pbu", .str), ("setId", .prim .i32), ("beginReportIndex", .prim .i64), ("endReportIndex", .prim .i64), ("rejReason", .prim .i32), ("text", .str)]
/-- Accessors (property, getter field, setter field), ExecRptSyncRsp.java:77-125. -/
def acc : List (String × Nat × Nat) := [("Pbu", 0, 0), ("SetId", 1, 1), ("BeginReportIndex", 2, 2), ("EndReportIndex", 3, 3), ("RejReason", 4, 4), ("Text", 5, 5)]
/-- `encode`, ExecRptSyncRsp.java:125-133. -/
def enc : List EncStmt := [
  .fixed 0 8 0x20 false,  -- 127: pbu
  .num 1 .i32 .be,  -- 128: setId
  .num 2 .i64 .be,  -- 129: beginReportIndex
  .num 3 .i64 .be,  -- 130: endReportIndex
  .num 4 .i32 .be,  -- 131: rejReason
  .fixed 5 64 0x20 false  -- 132: text
]
/-- `decode`, ExecRptSyncRsp.java:135-143. -/
def dec : List DecStmt := [
  .fixed 0 8 0x20 false,  -- 137: pbu
  .num 1 .i32 .be,  -- 138: setId
  .num 2 .i64 .be,  -- 139: beginReportIndex
  .num 3 .i64 .be,  -- 140: endReportIndex
  .num 4 .i32 .be,  -- 141: rejReason
  .fixed 5 64 0x20 false  -- 142: text
]
/-- `hashCode`, ExecRptSyncRsp.java:145. -/
def hash : HashBody := .fields [0, 1, 2, 3, 4, 5]
/-- `equals`, ExecRptSyncRsp.java:150. -/
def eqs : List (Nat × Nat) := [(0, 0), (1, 1), (2, 2), (3, 3), (4, 4), (5, 5)]
/-- `toString`, ExecRptSyncRsp.java:167. -/
def str : List StrPart := [.lit "SubExecRptSyncRsp [", .lit "pbu=", .field 0, .lit ", setId=", .field 1, .lit ", beginReportIndex=", .field 2, .lit ", endReportIndex=", .field 3, .lit ", rejReason=", .field 4, .lit ", text=", .field 5, .lit "]"]
/-- sse-bin/src/main/java/com/finproto/sse/bin/messages/ExecRptSyncRsp.java:69-184 -/
def decl : ClassDecl := ⟨"SubExecRptSyncRsp", fields, acc, enc, dec, hash, eqs, str⟩
end Sse.ExecRptSyncRsp_SubExecRptSyncRsp

/-! ### sse-bin/src/main/java/com/finproto/sse/bin/messages/Heartbeat.java:7-35 -/
namespace Sse.Heartbeat
/-- Fields (none), Heartbeat.java:7. -/
def fields : List (String × FTy) := []
/-- Accessors (property, getter field, setter field), Heartbeat.java:7. -/
def acc : List (String × Nat × Nat) := []
/-- `encode`, Heartbeat.java:9-10. -/
def enc : List EncStmt := [
]
/-- `decode`, Heartbeat.java:12-13. -/
def dec : List DecStmt := [
]
/-- `hashCode`, Heartbeat.java:15. -/
def hash : HashBody := .self
/-- `equals`, Heartbeat.java:20. -/
def eqs : List (Nat × Nat) := []
/-- `toString`, Heartbeat.java:31. -/
def str : List StrPart := [.lit "Heartbeat []"]
/-- sse-bin/src/main/java/com/finproto/sse/bin/messages/Heartbeat.java:7-35 -/
def decl : ClassDecl := ⟨"Heartbeat", fields, acc, enc, dec, hash, eqs, str⟩
end Sse.Heartbeat

/-! ### sse-bin/src/main/java/com/finproto/sse/bin/messages/Logon.java:8-123 -/
namespace Sse.Logon
/-- Fields, Logon.java:9-14. -/
def fields : List (String × FTy) := [("senderCompId", .str), ("targetCompId", .str), ("heartBtInt", .prim .i16), ("prtclVersion", .str), ("tradeDate", .prim .i32), ("qsize", .prim .i32)]
/-- Accessors (property, getter field, setter field), Logon.java:16-64. -/
def acc : List (String × Nat × Nat) := [("SenderCompId", 0, 0), ("TargetCompId", 1, 1), ("HeartBtInt", 2, 2), ("PrtclVersion", 3, 3), ("TradeDate", 4, 4), ("Qsize", 5, 5)]
/-- `encode`, Logon.java:64-72. -/
def enc : List EncStmt := [
  .fixed 0 32 0x20 false,  -- 66: senderCompId
  .fixed 1 32 0x20 false,  -- 67: targetCompId
  .num 2 .i16 .be,  -- 68: heartBtInt
  .fixed 3 8 0x20 false,  -- 69: prtclVersion
  .num 4 .i32 .be,  -- 70: tradeDate
  .num 5 .i32 .be  -- 71: qsize
]
/-- `decode`, Logon.java:74-82. -/
def dec : List DecStmt := [
  .fixed 0 32 0x20 false,  -- 76: senderCompId
  .fixed 1 32 0x20 false,  -- 77: targetCompId
  .num 2 .i16 .be,  -- 78: heartBtInt
  .fixed 3 8 0x20 false,  -- 79: prtclVersion
  .num 4 .i32 .be,  -- 80: tradeDate
  .num 5 .i32 .be  -- 81: qsize
]
/-- `hashCode`, Logon.java:84. -/
def hash : HashBody := .fields [0, 1, 2, 3, 4, 5]
/-- `equals`, Logon.java:89. -/
def eqs : List (Nat × Nat) := [(0, 0), (1, 1), (2, 2), (3, 3), (4, 4), (5, 5)]
/-- `toString`, Logon.java:106. -/
def str : List StrPart := [.lit "Logon [", .lit "senderCompId=", .field 0, .lit ", targetCompId=", .field 1, .lit ", heartBtInt=", .field 2, .lit ", prtclVersion=", .field 3, .lit ", tradeDate=", .field 4, .lit ", qsize=", .field 5, .lit "]"]
/-- sse-bin/src/main/java/com/finproto/sse/bin/messages/Logon.java:8-123 -/
def decl : ClassDecl := ⟨"Logon", fields, acc, enc, dec, hash, eqs, str⟩
end Sse.Logon

/-! ### sse-bin/src/main/java/com/finproto/sse/bin/messages/Logout.java:8-62 -/
namespace Sse.Logout
/-- Fields, Logout.java:9-10. -/
def fields : List (String × FTy) := [("sessionStatus", .prim .i32), ("text", .str)]
/-- Accessors (property, getter field, setter field), Logout.java:12-28. -/
def acc : List (String × Nat × Nat) := [("SessionStatus", 0, 0), ("Text", 1, 1)]
/-- `encode`, Logout.java:28-32. -/
def enc : List EncStmt := [
  .num 0 .i32 .be,  -- 30: sessionStatus
  .fixed 1 64 0x20 false  -- 31: text
]
/-- `decode`, Logout.java:34-38. -/
def dec : List DecStmt := [
  .num 0 .i32 .be,  -- 36: sessionStatus
  .fixed 1 64 0x20 false  -- 37: text
]
/-- `hashCode`, Logout.java:40. -/
def hash : HashBody := .fields [0, 1]
/-- `equals`, Logout.java:45. -/
def eqs : List (Nat × Nat) := [(0, 0), (1, 1)]
/-- `toString`, Logout.java:58. -/
def str : List StrPart := [.lit "Logout [", .lit "sessionStatus=", .field 0, .lit ", text=", .field 1, .lit "]"]
/-- sse-bin/src/main/java/com/finproto/sse/bin/messages/Logout.java:8-62 -/
def decl : ClassDecl := ⟨"Logout", fields, acc, enc, dec, hash, eqs, str⟩
end Sse.Logout

/-! ### sse-bin/src/main/java/com/finproto/sse/bin/messages/NewOrderSingle.java:8-279 -/
namespace Sse.NewOrderSingle
/-- Fields, NewOrderSingle.java:9-24. -/
def fields : List (String × FTy) := [("bizId", .prim .i32), ("bizPbu", .str), ("clOrdId", .str), ("securityId", .str), ("account", .str), ("ownerType", .prim .i8), ("side", .str), ("price", .prim .i64), ("orderQty", .prim .i64), ("ordType", .str), ("timeInForce", .str), ("transactTime", .prim .i64), ("creditTag", .str), ("clearingFirm", .str), ("branchId", .str), ("userInfo", .str)]
/-- Accessors (property, getter field, setter field), NewOrderSingle.java:26-154. -/
def acc : List (String × Nat × Nat) := [("BizId", 0, 0), ("BizPbu", 1, 1), ("ClOrdId", 2, 2), ("SecurityId", 3, 3), ("Account", 4, 4), ("OwnerType", 5, 5), ("Side", 6, 6), ("Price", 7, 7), ("OrderQty", 8, 8), ("OrdType", 9, 9), ("TimeInForce", 10, 10), ("TransactTime", 11, 11), ("CreditTag", 12, 12), ("ClearingFirm", 13, 13), ("BranchId", 14, 14), ("UserInfo", 15, 15)]
/-- `encode`, NewOrderSingle.java:154-172. -/
def enc : List EncStmt := [
  .num 0 .i32 .be,  -- 156: bizId
  .fixed 1 8 0x20 false,  -- 157: bizPbu
  .fixed 2 10 0x20 false,  -- 158: clOrdId
  .fixed 3 12 0x20 false,  -- 159: securityId
  .fixed 4 13 0x20 false,  -- 160: account
  .num 5 .i8 .be,  -- 161: ownerType
  .fixed 6 1 0x20 false,  -- 162: side
  .num 7 .i64 .be,  -- 163: price
  .num 8 .i64 .be,  -- 164: orderQty
  .fixed 9 1 0x20 false,  -- 165: ordType
  .fixed 10 1 0x20 false,  -- 166: timeInForce
  .num 11 .i64 .be,  -- 167: transactTime
  .fixed 12 2 0x20 false,  -- 168: creditTag
  .fixed 13 8 0x20 false,  -- 169: clearingFirm
  .fixed 14 8 0x20 false,  -- 170: branchId
  .fixed 15 32 0x20 false  -- 171: userInfo
]
/-- `decode`, NewOrderSingle.java:174-192. -/
def dec : List DecStmt := [
  .num 0 .i32 .be,  -- 176: bizId
  .fixed 1 8 0x20 false,  -- 177: bizPbu
  .fixed 2 10 0x20 false,  -- 178: clOrdId
  .fixed 3 12 0x20 false,  -- 179: securityId
  .fixed 4 13 0x20 false,  -- 180: account
  .num 5 .i8 .be,  -- 181: ownerType
  .fixed 6 1 0x20 false,  -- 182: side
  .num 7 .i64 .be,  -- 183: price
  .num 8 .i64 .be,  -- 184: orderQty
  .fixed 9 1 0x20 false,  -- 185: ordType
  .fixed 10 1 0x20 false,  -- 186: timeInForce
  .num 11 .i64 .be,  -- 187: transactTime
  .fixed 12 2 0x20 false,  -- 188: creditTag
  .fixed 13 8 0x20 false,  -- 189: clearingFirm
  .fixed 14 8 0x20 false,  -- 190: branchId
  .fixed 15 32 0x20 false  -- 191: userInfo
]
/-- `hashCode`, NewOrderSingle.java:194. -/
def hash : HashBody := .fields [0, 1, 2, 3, 4, 5, 6, 7, 8, 9, 10, 11, 12, 13, 14, 15]
/-- `equals`, NewOrderSingle.java:215. -/
def eqs : List (Nat × Nat) := [(0, 0), (1, 1), (2, 2), (3, 3), (4, 4), (5, 5), (6, 6), (7, 7), (8, 8), (9, 9), (10, 10), (11, 11), (12, 12), (13, 13), (14, 14), (15, 15)]
/-- `toString`, NewOrderSingle.java:242. -/
def str : List StrPart := [.lit "NewOrderSingle [", .lit "bizId=", .field 0, .lit ", bizPbu=", .field 1, .lit ", clOrdId=", .field 2, .lit ", securityId=", .field 3, .lit ", account=", .field 4, .lit ", ownerType=", .field 5, .lit ", side=", .field 6, .lit ", price=", .field 7, .lit ", orderQty=", .field 8, .lit ", ordType=", .field 9, .lit ", timeInForce=", .field 10, .lit ", transactTime=", .field 11, .lit ", creditTag=", .field 12, .lit ", clearingFirm=", .field 13, .lit ", branchId=", .field 14, .lit ", userInfo=", .field 15, .lit "]"]
/-- sse-bin/src/main/java/com/finproto/sse/bin/messages/NewOrderSingle.java:8-279 -/
def decl : ClassDecl := ⟨"NewOrderSingle", fields, acc, enc, dec, hash, eqs, str⟩
end Sse.NewOrderSingle

/-! ### sse-bin/src/main/java/com/finproto/sse/bin/messages/OrderCancel.java:8-204 -/
namespace Sse.OrderCancel
/-- Fields, OrderCancel.java:9-19. -/
def fields : List (String × FTy) := [("bizId", .prim .i32), ("bizPbu", .str), ("clOrdId", .str), ("securityId", .str), ("account", .str), ("ownerType", .prim .i8), ("side", .str), ("origClOrdId", .str), ("transactTime", .prim .i64), ("branchId", .str), ("userInfo", .str)]
/-- Accessors (property, getter field, setter field), OrderCancel.java:21-109. -/
def acc : List (String × Nat × Nat) := [("BizId", 0, 0), ("BizPbu", 1, 1), ("ClOrdId", 2, 2), ("SecurityId", 3, 3), ("Account", 4, 4), ("OwnerType", 5, 5), ("Side", 6, 6), ("OrigClOrdId", 7, 7), ("TransactTime", 8, 8), ("BranchId", 9, 9), ("UserInfo", 10, 10)]
/-- `encode`, OrderCancel.java:109-122. -/
def enc : List EncStmt := [
  .num 0 .i32 .be,  -- 111: bizId
  .fixed 1 8 0x20 false,  -- 112: bizPbu
  .fixed 2 10 0x20 false,  -- 113: clOrdId
  .fixed 3 12 0x20 false,  -- 114: securityId
  .fixed 4 13 0x20 false,  -- 115: account
  .num 5 .i8 .be,  -- 116: ownerType
  .fixed 6 1 0x20 false,  -- 117: side
  .fixed 7 10 0x20 false,  -- 118: origClOrdId
  .num 8 .i64 .be,  -- 119: transactTime
  .fixed 9 8 0x20 false,  -- 120: branchId
  .fixed 10 32 0x20 false  -- 121: userInfo
]
/-- `decode`, OrderCancel.java:124-137. -/
def dec : List DecStmt := [
  .num 0 .i32 .be,  -- 126: bizId
  .fixed 1 8 0x20 false,  -- 127: bizPbu
  .fixed 2 10 0x20 false,  -- 128: clOrdId
  .fixed 3 12 0x20 false,  -- 129: securityId
  .fixed 4 13 0x20 false,  -- 130: account
  .num 5 .i8 .be,  -- 131: ownerType
  .fixed 6 1 0x20 false,  -- 132: side
  .fixed 7 10 0x20 false,  -- 133: origClOrdId
  .num 8 .i64 .be,  -- 134: transactTime
  .fixed 9 8 0x20 false,  -- 135: branchId
  .fixed 10 32 0x20 false  -- 136: userInfo
]
/-- `hashCode`, OrderCancel.java:139. -/
def hash : HashBody := .fields [0, 1, 2, 3, 4, 5, 6, 7, 8, 9, 10]
/-- `equals`, OrderCancel.java:155. -/
def eqs : List (Nat × Nat) := [(0, 0), (1, 1), (2, 2), (3, 3), (4, 4), (5, 5), (6, 6), (7, 7), (8, 8), (9, 9), (10, 10)]
/-- `toString`, OrderCancel.java:177. -/
def str : List StrPart := [.lit "OrderCancel [", .lit "bizId=", .field 0, .lit ", bizPbu=", .field 1, .lit ", clOrdId=", .field 2, .lit ", securityId=", .field 3, .lit ", account=", .field 4, .lit ", ownerType=", .field 5, .lit ", side=", .field 6, .lit ", origClOrdId=", .field 7, .lit ", transactTime=", .field 8, .lit ", branchId=", .field 9, .lit ", userInfo=", .field 10, .lit "]"]
/-- sse-bin/src/main/java/com/finproto/sse/bin/messages/OrderCancel.java:8-204 -/
def decl : ClassDecl := ⟨"OrderCancel", fields, acc, enc, dec, hash, eqs, str⟩
end Sse.OrderCancel

/-! ### sse-bin/src/main/java/com/finproto/sse/bin/messages/OrderReject.java:8-152 -/
namespace Sse.OrderReject
/-- Fields, OrderReject.java:9-16. -/
def fields : List (String × FTy) := [("bizId", .prim .i32), ("bizPbu", .str), ("clOrdId", .str), ("securityId", .str), ("ordRejReason", .prim .i32), ("tradeDate", .prim .i32), ("transactTime", .prim .i64), ("userInfo", .str)]
/-- Accessors (property, getter field, setter field), OrderReject.java:18-82. -/
def acc : List (String × Nat × Nat) := [("BizId", 0, 0), ("BizPbu", 1, 1), ("ClOrdId", 2, 2), ("SecurityId", 3, 3), ("OrdRejReason", 4, 4), ("TradeDate", 5, 5), ("TransactTime", 6, 6), ("UserInfo", 7, 7)]
/-- `encode`, OrderReject.java:82-92. -/
def enc : List EncStmt := [
  .num 0 .i32 .be,  -- 84: bizId
  .fixed 1 8 0x20 false,  -- 85: bizPbu
  .fixed 2 10 0x20 false,  -- 86: clOrdId
  .fixed 3 12 0x20 false,  -- 87: securityId
  .num 4 .i32 .be,  -- 88: ordRejReason
  .num 5 .i32 .be,  -- 89: tradeDate
  .num 6 .i64 .be,  -- 90: transactTime
  .fixed 7 32 0x20 false  -- 91: userInfo
]
/-- `decode`, OrderReject.java:94-104. -/
def dec : List DecStmt := [
  .num 0 .i32 .be,  -- 96: bizId
  .fixed 1 8 0x20 false,  -- 97: bizPbu
  .fixed 2 10 0x20 false,  -- 98: clOrdId
  .fixed 3 12 0x20 false,  -- 99: securityId
  .num 4 .i32 .be,  -- 100: ordRejReason
  .num 5 .i32 .be,  -- 101: tradeDate
  .num 6 .i64 .be,  -- 102: transactTime
  .fixed 7 32 0x20 false  -- 103: userInfo
]
/-- `hashCode`, OrderReject.java:106. -/
def hash : HashBody := .fields [0, 1, 2, 3, 4, 5, 6, 7]
/-- `equals`, OrderReject.java:112. -/
def eqs : List (Nat × Nat) := [(0, 0), (1, 1), (2, 2), (3, 3), (4, 4), (5, 5), (6, 6), (7, 7)]
/-- `toString`, OrderReject.java:131. -/
def str : List StrPart := [.lit "OrderReject [", .lit "bizId=", .field 0, .lit ", bizPbu=", .field 1, .lit ", clOrdId=", .field 2, .lit ", securityId=", .field 3, .lit ", ordRejReason=", .field 4, .lit ", tradeDate=", .field 5, .lit ", transactTime=", .field 6, .lit ", userInfo=", .field 7, .lit "]"]
/-- sse-bin/src/main/java/com/finproto/sse/bin/messages/OrderReject.java:8-152 -/
def decl : ClassDecl := ⟨"OrderReject", fields, acc, enc, dec, hash, eqs, str⟩
end Sse.OrderReject

/-! ### sse-bin/src/main/java/com/finproto/sse/bin/messages/PlatformState.java:8-67 -/
namespace Sse.PlatformState
/-- Fields, PlatformState.java:9-10. -/
def fields : List (String × FTy) := [("platformId", .prim .i16), ("platformState", .prim .i16)]
/-- Accessors (property, getter field, setter field), PlatformState.java:12-28. -/
def acc : List (String × Nat × Nat) := [("PlatformId", 0, 0), ("PlatformState", 1, 1)]
/-- `encode`, PlatformState.java:28-32. -/
def enc : List EncStmt := [
  .num 0 .i16 .be,  -- 30: platformId
  .num 1 .i16 .be  -- 31: platformState
]
/-- `decode`, PlatformState.java:34-38. -/
def dec : List DecStmt := [
  .num 0 .i16 .be,  -- 36: platformId
  .num 1 .i16 .be  -- 37: platformState
]
/-- `hashCode`, PlatformState.java:40. -/
def hash : HashBody := .fields [0, 1]
/-- `equals`, PlatformState.java:45. -/
def eqs : List (Nat × Nat) := [(0, 0), (1, 1)]
/-- `toString`, PlatformState.java:58. -/
def str : List StrPart := [.lit "PlatformState [", .lit "platformId=", .field 0, .lit ", platformState=", .field 1, .lit "]"]
/-- sse-bin/src/main/java/com/finproto/sse/bin/messages/PlatformState.java:8-67 -/
def decl : ClassDecl := ⟨"PlatformState", fields, acc, enc, dec, hash, eqs, str⟩
end Sse.PlatformState

/-! ### sse-bin/src/main/java/com/finproto/sse/bin/messages/Report.java:8-429 -/
namespace Sse.Report
/-- Fields, Report.java:9-34. -/
def fields : List (String × FTy) := [("pbu", .str), ("setId", .prim .i32), ("reportIndex", .prim .i64), ("bizId", .prim .i32), ("execType", .str), ("bizPbu", .str), ("clOrdId", .str), ("securityId", .str), ("account", .str), ("ownerType", .prim .i8), ("orderEntryTime", .prim .i64), ("lastPx", .prim .i64), ("lastQty", .prim .i64), ("grossTradeAmt", .prim .i64), ("side", .str), ("orderQty", .prim .i64), ("leavesQty", .prim .i64), ("ordStatus", .str), ("creditTag", .str), ("clearingFirm", .str), ("branchId", .str), ("trdCnfmId", .str), ("ordCnfmId", .str), ("tradeDate", .prim .i32), ("transactTime", .prim .i64), ("userInfo", .str)]
/-- Accessors (property, getter field, setter field), Report.java:36-244. -/
def acc : List (String × Nat × Nat) := [("Pbu", 0, 0), ("SetId", 1, 1), ("ReportIndex", 2, 2), ("BizId", 3, 3), ("ExecType", 4, 4), ("BizPbu", 5, 5), ("ClOrdId", 6, 6), ("SecurityId", 7, 7), ("Account", 8, 8), ("OwnerType", 9, 9), ("OrderEntryTime", 10, 10), ("LastPx", 11, 11), ("LastQty", 12, 12), ("GrossTradeAmt", 13, 13), ("Side", 14, 14), ("OrderQty", 15, 15), ("LeavesQty", 16, 16), ("OrdStatus", 17, 17), ("CreditTag", 18, 18), ("ClearingFirm", 19, 19), ("BranchId", 20, 20), ("TrdCnfmId", 21, 21), ("OrdCnfmId", 22, 22), ("TradeDate", 23, 23), ("TransactTime", 24, 24), ("UserInfo", 25, 25)]
/-- `encode`, Report.java:244-272. -/
def enc : List EncStmt := [
  .fixed 0 8 0x20 false,  -- 246: pbu
  .num 1 .i32 .be,  -- 247: setId
  .num 2 .i64 .be,  -- 248: reportIndex
  .num 3 .i32 .be,  -- 249: bizId
  .fixed 4 1 0x20 false,  -- 250: execType
  .fixed 5 8 0x20 false,  -- 251: bizPbu
  .fixed 6 10 0x20 false,  -- 252: clOrdId
  .fixed 7 12 0x20 false,  -- 253: securityId
  .fixed 8 13 0x20 false,  -- 254: account
  .num 9 .i8 .be,  -- 255: ownerType
  .num 10 .i64 .be,  -- 256: orderEntryTime
  .num 11 .i64 .be,  -- 257: lastPx
  .num 12 .i64 .be,  -- 258: lastQty
  .num 13 .i64 .be,  -- 259: grossTradeAmt
  .fixed 14 1 0x20 false,  -- 260: side
  .num 15 .i64 .be,  -- 261: orderQty
  .num 16 .i64 .be,  -- 262: leavesQty
  .fixed 17 1 0x20 false,  -- 263: ordStatus
  .fixed 18 2 0x20 false,  -- 264: creditTag
  .fixed 19 8 0x20 false,  -- 265: clearingFirm
  .fixed 20 8 0x20 false,  -- 266: branchId
  .fixed 21 16 0x20 false,  -- 267: trdCnfmId
  .fixed 22 16 0x20 false,  -- 268: ordCnfmId
  .num 23 .i32 .be,  -- 269: tradeDate
  .num 24 .i64 .be,  -- 270: transactTime
  .fixed 25 32 0x20 false  -- 271: userInfo
]
/-- `decode`, Report.java:274-302. -/
def dec : List DecStmt := [
  .fixed 0 8 0x20 false,  -- 276: pbu
  .num 1 .i32 .be,  -- 277: setId
  .num 2 .i64 .be,  -- 278: reportIndex
  .num 3 .i32 .be,  -- 279: bizId
  .fixed 4 1 0x20 false,  -- 280: execType
  .fixed 5 8 0x20 false,  -- 281: bizPbu
  .fixed 6 10 0x20 false,  -- 282: clOrdId
  .fixed 7 12 0x20 false,  -- 283: securityId
  .fixed 8 13 0x20 false,  -- 284: account
  .num 9 .i8 .be,  -- 285: ownerType
  .num 10 .i64 .be,  -- 286: orderEntryTime
  .num 11 .i64 .be,  -- 287: lastPx
  .num 12 .i64 .be,  -- 288: lastQty
  .num 13 .i64 .be,  -- 289: grossTradeAmt
  .fixed 14 1 0x20 false,  -- 290: side
  .num 15 .i64 .be,  -- 291: orderQty
  .num 16 .i64 .be,  -- 292: leavesQty
  .fixed 17 1 0x20 false,  -- 293: ordStatus
  .fixed 18 2 0x20 false,  -- 294: creditTag
  .fixed 19 8 0x20 false,  -- 295: clearingFirm
  .fixed 20 8 0x20 false,  -- 296: branchId
  .fixed 21 16 0x20 false,  -- 297: trdCnfmId
  .fixed 22 16 0x20 false,  -- 298: ordCnfmId
  .num 23 .i32 .be,  -- 299: tradeDate
  .num 24 .i64 .be,  -- 300: transactTime
  .fixed 25 32 0x20 false  -- 301: userInfo
]
/-- `hashCode`, Report.java:304. -/
def hash : HashBody := .fields [0, 1, 2, 3, 4, 5, 6, 7, 8, 9, 10, 11, 12, 13, 14, 15, 16, 17, 18, 19, 20, 21, 22, 23, 24, 25]
/-- `equals`, Report.java:335. -/
def eqs : List (Nat × Nat) := [(0, 0), (1, 1), (2, 2), (3, 3), (4, 4), (5, 5), (6, 6), (7, 7), (8, 8), (9, 9), (10, 10), (11, 11), (12, 12), (13, 13), (14, 14), (15, 15), (16, 16), (17, 17), (18, 18), (19, 19), (20, 20), (21, 21), (22, 22), (23, 23), (24, 24), (25, 25)]
/-- `toString`, Report.java:372. -/
def str : List StrPart := [.lit "Report [", .lit "pbu=", .field 0, .lit ", setId=", .field 1, .lit ", reportIndex=", .field 2, .lit ", bizId=", .field 3, .lit ", execType=", .field 4, .lit ", bizPbu=", .field 5, .lit ", clOrdId=", .field 6, .lit ", securityId=", .field 7, .lit ", account=", .field 8, .lit ", ownerType=", .field 9, .lit ", orderEntryTime=", .field 10, .lit ", lastPx=", .field 11, .lit ", lastQty=", .field 12, .lit ", grossTradeAmt=", .field 13, .lit ", side=", .field 14, .lit ", orderQty=", .field 15, .lit ", leavesQty=", .field 16, .lit ", ordStatus=", .field 17, .lit ", creditTag=", .field 18, .lit ", clearingFirm=", .field 19, .lit ", branchId=", .field 20, .lit ", trdCnfmId=", .field 21, .lit ", ordCnfmId=", .field 22, .lit ", tradeDate=", .field 23, .lit ", transactTime=", .field 24, .lit ", userInfo=", .field 25, .lit "]"]
/-- sse-bin/src/main/java/com/finproto/sse/bin/messages/Report.java:8-429 -/
def decl : ClassDecl := ⟨"Report", fields, acc, enc, dec, hash, eqs, str⟩
end Sse.Report

/-! ### sse-bin/src/main/java/com/finproto/sse/bin/messages/SseBinary.java:13-226 -/
namespace Sse.SseBinary
/-- Fields, SseBinary.java:14-18. -/
def fields : List (String × FTy) := [("msgType", .prim .i32), ("msgSeqNum", .prim .i64), ("msgBodyLen", .prim .i32), ("body", .codec), ("checksum", .prim .i32)]
/-- Accessors (property, getter field, setter field), SseBinary.java:20-60. -/
def acc : List (String × Nat × Nat) := [("MsgType", 0, 0), ("MsgSeqNum", 1, 1), ("MsgBodyLen", 2, 2), ("Body", 3, 3), ("Checksum", 4, 4)]
/-- `encode`, SseBinary.java:60-80. -/
def enc : List EncStmt := [
  .num 0 .i32 .be,  -- 62: msgType
  .num 1 .i64 .be,  -- 63: msgSeqNum
  .save 0,  -- 64: int msgBodyLenPos
  .zero .i32 .be,  -- 65: write(0)
  .save 1,  -- 67: int bodyStart
  .objOpt 3,  -- 68: body
  .save 2,  -- 71: int bodyEnd
  .setLen 2 2 1,  -- 72: msgBodyLen = bodyEnd - bodyStart
  .patch 0 2 .i32 .be,  -- 73: set(msgBodyLenPos, msgBodyLen)
  .checksum 4 "SSE_BIN",  -- 74: checksum
  .num 4 .i32 .be  -- 79: checksum
]
/-- `decode`, SseBinary.java:82-90. -/
def dec : List DecStmt := [
  .num 0 .i32 .be,  -- 84: msgType
  .num 1 .i64 .be,  -- 85: msgSeqNum
  .num 2 .i32 .be,  -- 86: msgBodyLen
  .create 3 .sse_SseBinary 0,  -- 87: body
  .call 3,  -- 88: body
  .num 4 .i32 .be  -- 89: checksum
]
/-- `hashCode`, SseBinary.java:92. -/
def hash : HashBody := .fields [0, 1, 2, 3, 4]
/-- `equals`, SseBinary.java:97. -/
def eqs : List (Nat × Nat) := [(0, 0), (1, 1), (2, 2), (3, 3), (4, 4)]
/-- `toString`, SseBinary.java:113. -/
def str : List StrPart := [.lit "SseBinary [", .lit "msgType=", .field 0, .lit ", msgSeqNum=", .field 1, .lit ", msgBodyLen=", .field 2, .lit ", body=", .field 3, .lit ", checksum=", .field 4, .lit "]"]
/-- sse-bin/src/main/java/com/finproto/sse/bin/messages/SseBinary.java:13-226 -/
def decl : ClassDecl := ⟨"SseBinary", fields, acc, enc, dec, hash, eqs, str⟩
end Sse.SseBinary

end FinProto
