import Verif.Model.IR
/- GENERATED by tools/gen.py from the Java sources in /repo; do not edit. -/

namespace FinProto

/-! ### szse-bin/src/main/java/com/finproto/szse/bin/messages/BusinessReject.java:8-189 -/
namespace Szse.BusinessReject
/-- Fields, BusinessReject.java:9-18. -/
def fields : List (String × FTy) := [("applId", .str), ("transactTime", .prim .i64), ("submittingPbuid", .str), ("securityId", .str), ("securityIdsource", .str), ("refSeqNum", .prim .i64), ("refMsgType", .prim .i32), ("businessRejectRefId", .str), ("businessRejectReason", .prim .i16), ("businessRejectText", .str)]
/-- Accessors (property, getter field, setter field), BusinessReject.java:20-100. -/
def acc : List (String × Nat × Nat) := [("ApplId", 0, 0), ("TransactTime", 1, 1), ("SubmittingPbuid", 2, 2), ("SecurityId", 3, 3), ("SecurityIdsource", 4, 4), ("RefSeqNum", 5, 5), ("RefMsgType", 6, 6), ("BusinessRejectRefId", 7, 7), ("BusinessRejectReason", 8, 8), ("BusinessRejectText", 9, 9)]
/-- `encode`, BusinessReject.java:100-112. -/
def enc : List EncStmt := [
  .fixed 0 3 0x20 false,  -- 102: applId
  .num 1 .i64 .be,  -- 103: transactTime
  .fixed 2 6 0x20 false,  -- 104: submittingPbuid
  .fixed 3 8 0x20 false,  -- 105: securityId
  .fixed 4 4 0x20 false,  -- 106: securityIdsource
  .num 5 .i64 .be,  -- 107: refSeqNum
  .num 6 .i32 .be,  -- 108: refMsgType
  .fixed 7 10 0x20 false,  -- 109: businessRejectRefId
  .num 8 .i16 .be,  -- 110: businessRejectReason
  .fixed 9 50 0x20 false  -- 111: businessRejectText
]
/-- `decode`, BusinessReject.java:114-126. -/
def dec : List DecStmt := [
  .fixed 0 3 0x20 false,  -- 116: applId
  .num 1 .i64 .be,  -- 117: transactTime
  .fixed 2 6 0x20 false,  -- 118: submittingPbuid
  .fixed 3 8 0x20 false,  -- 119: securityId
  .fixed 4 4 0x20 false,  -- 120: securityIdsource
  .num 5 .i64 .be,  -- 121: refSeqNum
  .num 6 .i32 .be,  -- 122: refMsgType
  .fixed 7 10 0x20 false,  -- 123: businessRejectRefId
  .num 8 .i16 .be,  -- 124: businessRejectReason
  .fixed 9 50 0x20 false  -- 125: businessRejectText
]
/-- `hashCode`, BusinessReject.java:128. -/
def hash : HashBody := .fields [0, 1, 2, 3, 4, 5, 6, 7, 8, 9]
/-- `equals`, BusinessReject.java:143. -/
def eqs : List (Nat × Nat) := [(0, 0), (1, 1), (2, 2), (3, 3), (4, 4), (5, 5), (6, 6), (7, 7), (8, 8), (9, 9)]
/-- `toString`, BusinessReject.java:164. -/
def str : List StrPart := [.lit "BusinessReject [", .lit "applId=", .field 0, .lit ", transactTime=", .field 1, .lit ", submittingPbuid=", .field 2, .lit ", securityId=", .field 3, .lit ", securityIdsource=", .field 4, .lit ", refSeqNum=", .field 5, .lit ", refMsgType=", .field 6, .lit ", businessRejectRefId=", .field 7, .lit ", businessRejectReason=", .field 8, .lit ", businessRejectText=", .field 9, .lit "]"]
/-- szse-bin/src/main/java/com/finproto/szse/bin/messages/BusinessReject.java:8-189 -/
def decl : ClassDecl := ⟨"BusinessReject", fields, acc, enc, dec, hash, eqs, str⟩
end Szse.BusinessReject

/-! ### szse-bin/src/main/java/com/finproto/szse/bin/messages/CancelReject.java:8-309 -/
namespace Szse.CancelReject
/-- Fields, CancelReject.java:9-26. -/
def fields : List (String × FTy) := [("partitionNo", .prim .i32), ("reportIndex", .prim .i64), ("applId", .str), ("reportingPbuid", .str), ("submittingPbuid", .str), ("securityId", .str), ("securityIdsource", .str), ("ownerType", .prim .i16), ("clearingFirm", .str), ("transactTime", .prim .i64), ("userInfo", .str), ("clOrdId", .str), ("origClOrdId", .str), ("side", .str), ("ordStatus", .str), ("cxlRejReason", .prim .i16), ("rejectText", .str), ("orderId", .str)]
/-- Accessors (property, getter field, setter field), CancelReject.java:28-172. -/
def acc : List (String × Nat × Nat) := [("PartitionNo", 0, 0), ("ReportIndex", 1, 1), ("ApplId", 2, 2), ("ReportingPbuid", 3, 3), ("SubmittingPbuid", 4, 4), ("SecurityId", 5, 5), ("SecurityIdsource", 6, 6), ("OwnerType", 7, 7), ("ClearingFirm", 8, 8), ("TransactTime", 9, 9), ("UserInfo", 10, 10), ("ClOrdId", 11, 11), ("OrigClOrdId", 12, 12), ("Side", 13, 13), ("OrdStatus", 14, 14), ("CxlRejReason", 15, 15), ("RejectText", 16, 16), ("OrderId", 17, 17)]
/-- `encode`, CancelReject.java:172-192. -/
def enc : List EncStmt := [
  .num 0 .i32 .be,  -- 174: partitionNo
  .num 1 .i64 .be,  -- 175: reportIndex
  .fixed 2 3 0x20 false,  -- 176: applId
  .fixed 3 6 0x20 false,  -- 177: reportingPbuid
  .fixed 4 6 0x20 false,  -- 178: submittingPbuid
  .fixed 5 8 0x20 false,  -- 179: securityId
  .fixed 6 4 0x20 false,  -- 180: securityIdsource
  .num 7 .i16 .be,  -- 181: ownerType
  .fixed 8 2 0x20 false,  -- 182: clearingFirm
  .num 9 .i64 .be,  -- 183: transactTime
  .fixed 10 8 0x20 false,  -- 184: userInfo
  .fixed 11 10 0x20 false,  -- 185: clOrdId
  .fixed 12 10 0x20 false,  -- 186: origClOrdId
  .fixed 13 1 0x20 false,  -- 187: side
  .fixed 14 1 0x20 false,  -- 188: ordStatus
  .num 15 .i16 .be,  -- 189: cxlRejReason
  .fixed 16 16 0x20 false,  -- 190: rejectText
  .fixed 17 16 0x20 false  -- 191: orderId
]
/-- `decode`, CancelReject.java:194-214. -/
def dec : List DecStmt := [
  .num 0 .i32 .be,  -- 196: partitionNo
  .num 1 .i64 .be,  -- 197: reportIndex
  .fixed 2 3 0x20 false,  -- 198: applId
  .fixed 3 6 0x20 false,  -- 199: reportingPbuid
  .fixed 4 6 0x20 false,  -- 200: submittingPbuid
  .fixed 5 8 0x20 false,  -- 201: securityId
  .fixed 6 4 0x20 false,  -- 202: securityIdsource
  .num 7 .i16 .be,  -- 203: ownerType
  .fixed 8 2 0x20 false,  -- 204: clearingFirm
  .num 9 .i64 .be,  -- 205: transactTime
  .fixed 10 8 0x20 false,  -- 206: userInfo
  .fixed 11 10 0x20 false,  -- 207: clOrdId
  .fixed 12 10 0x20 false,  -- 208: origClOrdId
  .fixed 13 1 0x20 false,  -- 209: side
  .fixed 14 1 0x20 false,  -- 210: ordStatus
  .num 15 .i16 .be,  -- 211: cxlRejReason
  .fixed 16 16 0x20 false,  -- 212: rejectText
  .fixed 17 16 0x20 false  -- 213: orderId
]
/-- `hashCode`, CancelReject.java:216. -/
def hash : HashBody := .fields [0, 1, 2, 3, 4, 5, 6, 7, 8, 9, 10, 11, 12, 13, 14, 15, 16, 17]
/-- `equals`, CancelReject.java:239. -/
def eqs : List (Nat × Nat) := [(0, 0), (1, 1), (2, 2), (3, 3), (4, 4), (5, 5), (6, 6), (7, 7), (8, 8), (9, 9), (10, 10), (11, 11), (12, 12), (13, 13), (14, 14), (15, 15), (16, 16), (17, 17)]
/-- `toString`, CancelReject.java:268. -/
def str : List StrPart := [.lit "CancelReject [", .lit "partitionNo=", .field 0, .lit ", reportIndex=", .field 1, .lit ", applId=", .field 2, .lit ", reportingPbuid=", .field 3, .lit ", submittingPbuid=", .field 4, .lit ", securityId=", .field 5, .lit ", securityIdsource=", .field 6, .lit ", ownerType=", .field 7, .lit ", clearingFirm=", .field 8, .lit ", transactTime=", .field 9, .lit ", userInfo=", .field 10, .lit ", clOrdId=", .field 11, .lit ", origClOrdId=", .field 12, .lit ", side=", .field 13, .lit ", ordStatus=", .field 14, .lit ", cxlRejReason=", .field 15, .lit ", rejectText=", .field 16, .lit ", orderId=", .field 17, .lit "]"]
/-- szse-bin/src/main/java/com/finproto/szse/bin/messages/CancelReject.java:8-309 -/
def decl : ClassDecl := ⟨"CancelReject", fields, acc, enc, dec, hash, eqs, str⟩
end Szse.CancelReject

/-! ### szse-bin/src/main/java/com/finproto/szse/bin/messages/ExecutionConfirm.java:11-536 -/
namespace Szse.ExecutionConfirm
/-- Fields, ExecutionConfirm.java:12-40. -/
def fields : List (String × FTy) := [("partitionNo", .prim .i32), ("reportIndex", .prim .i64), ("applId", .str), ("reportingPbuid", .str), ("submittingPbuid", .str), ("securityId", .str), ("securityIdsource", .str), ("ownerType", .prim .i16), ("clearingFirm", .str), ("transactTime", .prim .i64), ("userInfo", .str), ("orderId", .str), ("clOrdId", .str), ("quoteMsgId", .str), ("origClOrdId", .str), ("execId", .str), ("execType", .str), ("ordStatus", .str), ("ordRejReason", .prim .i16), ("leavesQty", .prim .i64), ("cumQty", .prim .i64), ("side", .str), ("ordType", .str), ("orderQty", .prim .i64), ("price", .prim .i64), ("accountId", .str), ("branchId", .str), ("orderRestrictions", .str), ("applExtend", .codec)]
/-- Accessors (property, getter field, setter field), ExecutionConfirm.java:42-274. -/
def acc : List (String × Nat × Nat) := [("PartitionNo", 0, 0), ("ReportIndex", 1, 1), ("ApplId", 2, 2), ("ReportingPbuid", 3, 3), ("SubmittingPbuid", 4, 4), ("SecurityId", 5, 5), ("SecurityIdsource", 6, 6), ("OwnerType", 7, 7), ("ClearingFirm", 8, 8), ("TransactTime", 9, 9), ("UserInfo", 10, 10), ("OrderId", 11, 11), ("ClOrdId", 12, 12), ("QuoteMsgId", 13, 13), ("OrigClOrdId", 14, 14), ("ExecId", 15, 15), ("ExecType", 16, 16), ("OrdStatus", 17, 17), ("OrdRejReason", 18, 18), ("LeavesQty", 19, 19), ("CumQty", 20, 20), ("Side", 21, 21), ("OrdType", 22, 22), ("OrderQty", 23, 23), ("Price", 24, 24), ("AccountId", 25, 25), ("BranchId", 26, 26), ("OrderRestrictions", 27, 27), ("ApplExtend", 28, 28)]
/-- `encode`, ExecutionConfirm.java:274-307. -/
def enc : List EncStmt := [
  .num 0 .i32 .be,  -- 276: partitionNo
  .num 1 .i64 .be,  -- 277: reportIndex
  .fixed 2 3 0x20 false,  -- 278: applId
  .fixed 3 6 0x20 false,  -- 279: reportingPbuid
  .fixed 4 6 0x20 false,  -- 280: submittingPbuid
  .fixed 5 8 0x20 false,  -- 281: securityId
  .fixed 6 4 0x20 false,  -- 282: securityIdsource
  .num 7 .i16 .be,  -- 283: ownerType
  .fixed 8 2 0x20 false,  -- 284: clearingFirm
  .num 9 .i64 .be,  -- 285: transactTime
  .fixed 10 8 0x20 false,  -- 286: userInfo
  .fixed 11 16 0x20 false,  -- 287: orderId
  .fixed 12 10 0x20 false,  -- 288: clOrdId
  .fixed 13 10 0x20 false,  -- 289: quoteMsgId
  .fixed 14 10 0x20 false,  -- 290: origClOrdId
  .fixed 15 16 0x20 false,  -- 291: execId
  .fixed 16 1 0x20 false,  -- 292: execType
  .fixed 17 1 0x20 false,  -- 293: ordStatus
  .num 18 .i16 .be,  -- 294: ordRejReason
  .num 19 .i64 .be,  -- 295: leavesQty
  .num 20 .i64 .be,  -- 296: cumQty
  .fixed 21 1 0x20 false,  -- 297: side
  .fixed 22 1 0x20 false,  -- 298: ordType
  .num 23 .i64 .be,  -- 299: orderQty
  .num 24 .i64 .be,  -- 300: price
  .fixed 25 12 0x20 false,  -- 301: accountId
  .fixed 26 4 0x20 false,  -- 302: branchId
  .fixed 27 4 0x20 false,  -- 303: orderRestrictions
  .objOpt 28  -- 304: applExtend
]
/-- `decode`, ExecutionConfirm.java:309-341. -/
def dec : List DecStmt := [
  .num 0 .i32 .be,  -- 311: partitionNo
  .num 1 .i64 .be,  -- 312: reportIndex
  .fixed 2 3 0x20 false,  -- 313: applId
  .fixed 3 6 0x20 false,  -- 314: reportingPbuid
  .fixed 4 6 0x20 false,  -- 315: submittingPbuid
  .fixed 5 8 0x20 false,  -- 316: securityId
  .fixed 6 4 0x20 false,  -- 317: securityIdsource
  .num 7 .i16 .be,  -- 318: ownerType
  .fixed 8 2 0x20 false,  -- 319: clearingFirm
  .num 9 .i64 .be,  -- 320: transactTime
  .fixed 10 8 0x20 false,  -- 321: userInfo
  .fixed 11 16 0x20 false,  -- 322: orderId
  .fixed 12 10 0x20 false,  -- 323: clOrdId
  .fixed 13 10 0x20 false,  -- 324: quoteMsgId
  .fixed 14 10 0x20 false,  -- 325: origClOrdId
  .fixed 15 16 0x20 false,  -- 326: execId
  .fixed 16 1 0x20 false,  -- 327: execType
  .fixed 17 1 0x20 false,  -- 328: ordStatus
  .num 18 .i16 .be,  -- 329: ordRejReason
  .num 19 .i64 .be,  -- 330: leavesQty
  .num 20 .i64 .be,  -- 331: cumQty
  .fixed 21 1 0x20 false,  -- 332: side
  .fixed 22 1 0x20 false,  -- 333: ordType
  .num 23 .i64 .be,  -- 334: orderQty
  .num 24 .i64 .be,  -- 335: price
  .fixed 25 12 0x20 false,  -- 336: accountId
  .fixed 26 4 0x20 false,  -- 337: branchId
  .fixed 27 4 0x20 false,  -- 338: orderRestrictions
  .create 28 .szse_ExecutionConfirm 2,  -- 339: applExtend
  .call 28  -- 340: applExtend
]
/-- `hashCode`, ExecutionConfirm.java:343. -/
def hash : HashBody := .fields [0, 1, 2, 3, 4, 5, 6, 7, 8, 9, 10, 11, 12, 13, 14, 15, 16, 17, 18, 19, 20, 21, 22, 23, 24, 25, 26, 27, 28]
/-- `equals`, ExecutionConfirm.java:377. -/
def eqs : List (Nat × Nat) := [(0, 0), (1, 1), (2, 2), (3, 3), (4, 4), (5, 5), (6, 6), (7, 7), (8, 8), (9, 9), (10, 10), (11, 11), (12, 12), (13, 13), (14, 14), (15, 15), (16, 16), (17, 17), (18, 18), (19, 19), (20, 20), (21, 21), (22, 22), (23, 23), (24, 24), (25, 25), (26, 26), (27, 27), (28, 28)]
/-- `toString`, ExecutionConfirm.java:417. -/
def str : List StrPart := [.lit "ExecutionConfirm [", .lit "partitionNo=", .field 0, .lit ", reportIndex=", .field 1, .lit ", applId=", .field 2, .lit ", reportingPbuid=", .field 3, .lit ", submittingPbuid=", .field 4, .lit ", securityId=", .field 5, .lit ", securityIdsource=", .field 6, .lit ", ownerType=", .field 7, .lit ", clearingFirm=", .field 8, .lit ", transactTime=", .field 9, .lit ", userInfo=", .field 10, .lit ", orderId=", .field 11, .lit ", clOrdId=", .field 12, .lit ", quoteMsgId=", .field 13, .lit ", origClOrdId=", .field 14, .lit ", execId=", .field 15, .lit ", execType=", .field 16, .lit ", ordStatus=", .field 17, .lit ", ordRejReason=", .field 18, .lit ", leavesQty=", .field 19, .lit ", cumQty=", .field 20, .lit ", side=", .field 21, .lit ", ordType=", .field 22, .lit ", orderQty=", .field 23, .lit ", price=", .field 24, .lit ", accountId=", .field 25, .lit ", branchId=", .field 26, .lit ", orderRestrictions=", .field 27, .lit ", applExtend=", .field 28, .lit "]"]
/-- szse-bin/src/main/java/com/finproto/szse/bin/messages/ExecutionConfirm.java:11-536 -/
def decl : ClassDecl := ⟨"ExecutionConfirm", fields, acc, enc, dec, hash, eqs, str⟩
end Szse.ExecutionConfirm

/-! ### szse-bin/src/main/java/com/finproto/szse/bin/messages/ExecutionReport.java:11-467 -/
namespace Szse.ExecutionReport
/-- Fields, ExecutionReport.java:12-36. -/
def fields : List (String × FTy) := [("partitionNo", .prim .i32), ("reportIndex", .prim .i64), ("applId", .str), ("reportingPbuid", .str), ("submittingPbuid", .str), ("securityId", .str), ("securityIdsource", .str), ("ownerType", .prim .i16), ("clearingFirm", .str), ("transactTime", .prim .i64), ("userInfo", .str), ("orderId", .str), ("clOrdId", .str), ("quoteMsgId", .str), ("execId", .str), ("execType", .str), ("ordStatus", .str), ("lastPx", .prim .i64), ("lastQty", .prim .i64), ("leavesQty", .prim .i64), ("cumQty", .prim .i64), ("side", .str), ("accountId", .str), ("branchId", .str), ("applExtend", .codec)]
/-- Accessors (property, getter field, setter field), ExecutionReport.java:38-238. -/
def acc : List (String × Nat × Nat) := [("PartitionNo", 0, 0), ("ReportIndex", 1, 1), ("ApplId", 2, 2), ("ReportingPbuid", 3, 3), ("SubmittingPbuid", 4, 4), ("SecurityId", 5, 5), ("SecurityIdsource", 6, 6), ("OwnerType", 7, 7), ("ClearingFirm", 8, 8), ("TransactTime", 9, 9), ("UserInfo", 10, 10), ("OrderId", 11, 11), ("ClOrdId", 12, 12), ("QuoteMsgId", 13, 13), ("ExecId", 14, 14), ("ExecType", 15, 15), ("OrdStatus", 16, 16), ("LastPx", 17, 17), ("LastQty", 18, 18), ("LeavesQty", 19, 19), ("CumQty", 20, 20), ("Side", 21, 21), ("AccountId", 22, 22), ("BranchId", 23, 23), ("ApplExtend", 24, 24)]
/-- `encode`, ExecutionReport.java:238-267. -/
def enc : List EncStmt := [
  .num 0 .i32 .be,  -- 240: partitionNo
  .num 1 .i64 .be,  -- 241: reportIndex
  .fixed 2 3 0x20 false,  -- 242: applId
  .fixed 3 6 0x20 false,  -- 243: reportingPbuid
  .fixed 4 6 0x20 false,  -- 244: submittingPbuid
  .fixed 5 8 0x20 false,  -- 245: securityId
  .fixed 6 4 0x20 false,  -- 246: securityIdsource
  .num 7 .i16 .be,  -- 247: ownerType
  .fixed 8 2 0x20 false,  -- 248: clearingFirm
  .num 9 .i64 .be,  -- 249: transactTime
  .fixed 10 8 0x20 false,  -- 250: userInfo
  .fixed 11 16 0x20 false,  -- 251: orderId
  .fixed 12 10 0x20 false,  -- 252: clOrdId
  .fixed 13 10 0x20 false,  -- 253: quoteMsgId
  .fixed 14 16 0x20 false,  -- 254: execId
  .fixed 15 1 0x20 false,  -- 255: execType
  .fixed 16 1 0x20 false,  -- 256: ordStatus
  .num 17 .i64 .be,  -- 257: lastPx
  .num 18 .i64 .be,  -- 258: lastQty
  .num 19 .i64 .be,  -- 259: leavesQty
  .num 20 .i64 .be,  -- 260: cumQty
  .fixed 21 1 0x20 false,  -- 261: side
  .fixed 22 12 0x20 false,  -- 262: accountId
  .fixed 23 4 0x20 false,  -- 263: branchId
  .objOpt 24  -- 264: applExtend
]
/-- `decode`, ExecutionReport.java:269-297. -/
def dec : List DecStmt := [
  .num 0 .i32 .be,  -- 271: partitionNo
  .num 1 .i64 .be,  -- 272: reportIndex
  .fixed 2 3 0x20 false,  -- 273: applId
  .fixed 3 6 0x20 false,  -- 274: reportingPbuid
  .fixed 4 6 0x20 false,  -- 275: submittingPbuid
  .fixed 5 8 0x20 false,  -- 276: securityId
  .fixed 6 4 0x20 false,  -- 277: securityIdsource
  .num 7 .i16 .be,  -- 278: ownerType
  .fixed 8 2 0x20 false,  -- 279: clearingFirm
  .num 9 .i64 .be,  -- 280: transactTime
  .fixed 10 8 0x20 false,  -- 281: userInfo
  .fixed 11 16 0x20 false,  -- 282: orderId
  .fixed 12 10 0x20 false,  -- 283: clOrdId
  .fixed 13 10 0x20 false,  -- 284: quoteMsgId
  .fixed 14 16 0x20 false,  -- 285: execId
  .fixed 15 1 0x20 false,  -- 286: execType
  .fixed 16 1 0x20 false,  -- 287: ordStatus
  .num 17 .i64 .be,  -- 288: lastPx
  .num 18 .i64 .be,  -- 289: lastQty
  .num 19 .i64 .be,  -- 290: leavesQty
  .num 20 .i64 .be,  -- 291: cumQty
  .fixed 21 1 0x20 false,  -- 292: side
  .fixed 22 12 0x20 false,  -- 293: accountId
  .fixed 23 4 0x20 false,  -- 294: branchId
  .create 24 .szse_ExecutionReport 2,  -- 295: applExtend
  .call 24  -- 296: applExtend
]
/-- `hashCode`, ExecutionReport.java:299. -/
def hash : HashBody := .fields [0, 1, 2, 3, 4, 5, 6, 7, 8, 9, 10, 11, 12, 13, 14, 15, 16, 17, 18, 19, 20, 21, 22, 23, 24]
/-- `equals`, ExecutionReport.java:329. -/
def eqs : List (Nat × Nat) := [(0, 0), (1, 1), (2, 2), (3, 3), (4, 4), (5, 5), (6, 6), (7, 7), (8, 8), (9, 9), (10, 10), (11, 11), (12, 12), (13, 13), (14, 14), (15, 15), (16, 16), (17, 17), (18, 18), (19, 19), (20, 20), (21, 21), (22, 22), (23, 23), (24, 24)]
/-- `toString`, ExecutionReport.java:365. -/
def str : List StrPart := [.lit "ExecutionReport [", .lit "partitionNo=", .field 0, .lit ", reportIndex=", .field 1, .lit ", applId=", .field 2, .lit ", reportingPbuid=", .field 3, .lit ", submittingPbuid=", .field 4, .lit ", securityId=", .field 5, .lit ", securityIdsource=", .field 6, .lit ", ownerType=", .field 7, .lit ", clearingFirm=", .field 8, .lit ", transactTime=", .field 9, .lit ", userInfo=", .field 10, .lit ", orderId=", .field 11, .lit ", clOrdId=", .field 12, .lit ", quoteMsgId=", .field 13, .lit ", execId=", .field 14, .lit ", execType=", .field 15, .lit ", ordStatus=", .field 16, .lit ", lastPx=", .field 17, .lit ", lastQty=", .field 18, .lit ", leavesQty=", .field 19, .lit ", cumQty=", .field 20, .lit ", side=", .field 21, .lit ", accountId=", .field 22, .lit ", branchId=", .field 23, .lit ", applExtend=", .field 24, .lit "]"]
/-- szse-bin/src/main/java/com/finproto/szse/bin/messages/ExecutionReport.java:11-467 -/
def decl : ClassDecl := ⟨"ExecutionReport", fields, acc, enc, dec, hash, eqs, str⟩
end Szse.ExecutionReport

/-! ### szse-bin/src/main/java/com/finproto/szse/bin/messages/Extend100101.java:8-109 -/
namespace Szse.Extend100101
/-- Fields, Extend100101.java:9-13. -/
def fields : List (String × FTy) := [("stopPx", .prim .i64), ("minQty", .prim .i64), ("maxPriceLevels", .prim .i16), ("timeInForce", .str), ("cashMargin", .str)]
/-- Accessors (property, getter field, setter field), Extend100101.java:15-55. -/
def acc : List (String × Nat × Nat) := [("StopPx", 0, 0), ("MinQty", 1, 1), ("MaxPriceLevels", 2, 2), ("TimeInForce", 3, 3), ("CashMargin", 4, 4)]
/-- `encode`, Extend100101.java:55-62. -/
def enc : List EncStmt := [
  .num 0 .i64 .be,  -- 57: stopPx
  .num 1 .i64 .be,  -- 58: minQty
  .num 2 .i16 .be,  -- 59: maxPriceLevels
  .fixed 3 1 0x20 false,  -- 60: timeInForce
  .fixed 4 1 0x20 false  -- 61: cashMargin
]
/-- `decode`, Extend100101.java:64-71. -/
def dec : List DecStmt := [
  .num 0 .i64 .be,  -- 66: stopPx
  .num 1 .i64 .be,  -- 67: minQty
  .num 2 .i16 .be,  -- 68: maxPriceLevels
  .fixed 3 1 0x20 false,  -- 69: timeInForce
  .fixed 4 1 0x20 false  -- 70: cashMargin
]
/-- `hashCode`, Extend100101.java:73. -/
def hash : HashBody := .fields [0, 1, 2, 3, 4]
/-- `equals`, Extend100101.java:78. -/
def eqs : List (Nat × Nat) := [(0, 0), (1, 1), (2, 2), (3, 3), (4, 4)]
/-- `toString`, Extend100101.java:94. -/
def str : List StrPart := [.lit "Extend100101 [", .lit "stopPx=", .field 0, .lit ", minQty=", .field 1, .lit ", maxPriceLevels=", .field 2, .lit ", timeInForce=", .field 3, .lit ", cashMargin=", .field 4, .lit "]"]
/-- szse-bin/src/main/java/com/finproto/szse/bin/messages/Extend100101.java:8-109 -/
def decl : ClassDecl := ⟨"Extend100101", fields, acc, enc, dec, hash, eqs, str⟩
end Szse.Extend100101

/-! ### szse-bin/src/main/java/com/finproto/szse/bin/messages/Extend100201.java:8-95 -/
namespace Szse.Extend100201
/-- Fields, Extend100201.java:9-12. -/
def fields : List (String × FTy) := [("stopPx", .prim .i64), ("minQty", .prim .i64), ("maxPriceLevels", .prim .i16), ("timeInForce", .str)]
/-- Accessors (property, getter field, setter field), Extend100201.java:14-46. -/
def acc : List (String × Nat × Nat) := [("StopPx", 0, 0), ("MinQty", 1, 1), ("MaxPriceLevels", 2, 2), ("TimeInForce", 3, 3)]
/-- `encode`, Extend100201.java:46-52. -/
def enc : List EncStmt := [
  .num 0 .i64 .be,  -- 48: stopPx
  .num 1 .i64 .be,  -- 49: minQty
  .num 2 .i16 .be,  -- 50: maxPriceLevels
  .fixed 3 1 0x20 false  -- 51: timeInForce
]
/-- `decode`, Extend100201.java:54-60. -/
def dec : List DecStmt := [
  .num 0 .i64 .be,  -- 56: stopPx
  .num 1 .i64 .be,  -- 57: minQty
  .num 2 .i16 .be,  -- 58: maxPriceLevels
  .fixed 3 1 0x20 false  -- 59: timeInForce
]
/-- `hashCode`, Extend100201.java:62. -/
def hash : HashBody := .fields [0, 1, 2, 3]
/-- `equals`, Extend100201.java:67. -/
def eqs : List (Nat × Nat) := [(0, 0), (1, 1), (2, 2), (3, 3)]
/-- `toString`, Extend100201.java:82. -/
def str : List StrPart := [.lit "Extend100201 [", .lit "stopPx=", .field 0, .lit ", minQty=", .field 1, .lit ", maxPriceLevels=", .field 2, .lit ", timeInForce=", .field 3, .lit "]"]
/-- szse-bin/src/main/java/com/finproto/szse/bin/messages/Extend100201.java:8-95 -/
def decl : ClassDecl := ⟨"Extend100201", fields, acc, enc, dec, hash, eqs, str⟩
end Szse.Extend100201

/-! ### szse-bin/src/main/java/com/finproto/szse/bin/messages/Extend100301.java:8-95 -/
namespace Szse.Extend100301
/-- Fields, Extend100301.java:9-12. -/
def fields : List (String × FTy) := [("stopPx", .prim .i64), ("minQty", .prim .i64), ("maxPriceLevels", .prim .i16), ("timeInForce", .str)]
/-- Accessors (property, getter field, setter field), Extend100301.java:14-46. -/
def acc : List (String × Nat × Nat) := [("StopPx", 0, 0), ("MinQty", 1, 1), ("MaxPriceLevels", 2, 2), ("TimeInForce", 3, 3)]
/-- `encode`, Extend100301.java:46-52. -/
def enc : List EncStmt := [
  .num 0 .i64 .be,  -- 48: stopPx
  .num 1 .i64 .be,  -- 49: minQty
  .num 2 .i16 .be,  -- 50: maxPriceLevels
  .fixed 3 1 0x20 false  -- 51: timeInForce
]
/-- `decode`, Extend100301.java:54-60. -/
def dec : List DecStmt := [
  .num 0 .i64 .be,  -- 56: stopPx
  .num 1 .i64 .be,  -- 57: minQty
  .num 2 .i16 .be,  -- 58: maxPriceLevels
  .fixed 3 1 0x20 false  -- 59: timeInForce
]
/-- `hashCode`, Extend100301.java:62. -/
def hash : HashBody := .fields [0, 1, 2, 3]
/-- `equals`, Extend100301.java:67. -/
def eqs : List (Nat × Nat) := [(0, 0), (1, 1), (2, 2), (3, 3)]
/-- `toString`, Extend100301.java:82. -/
def str : List StrPart := [.lit "Extend100301 [", .lit "stopPx=", .field 0, .lit ", minQty=", .field 1, .lit ", maxPriceLevels=", .field 2, .lit ", timeInForce=", .field 3, .lit "]"]
/-- szse-bin/src/main/java/com/finproto/szse/bin/messages/Extend100301.java:8-95 -/
def decl : ClassDecl := ⟨"Extend100301", fields, acc, enc, dec, hash, eqs, str⟩
end Szse.Extend100301

/-! ### szse-bin/src/main/java/com/finproto/szse/bin/messages/Extend100501.java:8-67 -/
namespace Szse.Extend100501
/-- Fields, Extend100501.java:9-10. -/
def fields : List (String × FTy) := [("confirmId", .str), ("cashMargin", .str)]
/-- Accessors (property, getter field, setter field), Extend100501.java:12-28. -/
def acc : List (String × Nat × Nat) := [("ConfirmId", 0, 0), ("CashMargin", 1, 1)]
/-- `encode`, Extend100501.java:28-32. -/
def enc : List EncStmt := [
  .fixed 0 8 0x20 false,  -- 30: confirmId
  .fixed 1 1 0x20 false  -- 31: cashMargin
]
/-- `decode`, Extend100501.java:34-38. -/
def dec : List DecStmt := [
  .fixed 0 8 0x20 false,  -- 36: confirmId
  .fixed 1 1 0x20 false  -- 37: cashMargin
]
/-- `hashCode`, Extend100501.java:40. -/
def hash : HashBody := .fields [0, 1]
/-- `equals`, Extend100501.java:45. -/
def eqs : List (Nat × Nat) := [(0, 0), (1, 1)]
/-- `toString`, Extend100501.java:58. -/
def str : List StrPart := [.lit "Extend100501 [", .lit "confirmId=", .field 0, .lit ", cashMargin=", .field 1, .lit "]"]
/-- szse-bin/src/main/java/com/finproto/szse/bin/messages/Extend100501.java:8-67 -/
def decl : ClassDecl := ⟨"Extend100501", fields, acc, enc, dec, hash, eqs, str⟩
end Szse.Extend100501

/-! ### szse-bin/src/main/java/com/finproto/szse/bin/messages/Extend100601.java:8-50 -/
namespace Szse.Extend100601
/-- Fields, Extend100601.java:9-9. -/
def fields : List (String × FTy) := [("cashMargin", .str)]
/-- Accessors (property, getter field, setter field), Extend100601.java:11-19. -/
def acc : List (String × Nat × Nat) := [("CashMargin", 0, 0)]
/-- `encode`, Extend100601.java:19-22. -/
def enc : List EncStmt := [
  .fixed 0 1 0x20 false  -- 21: cashMargin
]
/-- `decode`, Extend100601.java:24-27. -/
def dec : List DecStmt := [
  .fixed 0 1 0x20 false  -- 26: cashMargin
]
/-- `hashCode`, Extend100601.java:29. -/
def hash : HashBody := .fields [0]
/-- `equals`, Extend100601.java:34. -/
def eqs : List (Nat × Nat) := [(0, 0)]
/-- `toString`, Extend100601.java:46. -/
def str : List StrPart := [.lit "Extend100601 [", .lit "cashMargin=", .field 0, .lit "]"]
/-- szse-bin/src/main/java/com/finproto/szse/bin/messages/Extend100601.java:8-50 -/
def decl : ClassDecl := ⟨"Extend100601", fields, acc, enc, dec, hash, eqs, str⟩
end Szse.Extend100601

/-! ### szse-bin/src/main/java/com/finproto/szse/bin/messages/Extend100701.java:8-81 -/
namespace Szse.Extend100701
/-- Fields, Extend100701.java:9-11. -/
def fields : List (String × FTy) := [("expirationDays", .prim .i16), ("expirationType", .prim .i8), ("shareProperty", .str)]
/-- Accessors (property, getter field, setter field), Extend100701.java:13-37. -/
def acc : List (String × Nat × Nat) := [("ExpirationDays", 0, 0), ("ExpirationType", 1, 1), ("ShareProperty", 2, 2)]
/-- `encode`, Extend100701.java:37-42. -/
def enc : List EncStmt := [
  .num 0 .i16 .be,  -- 39: expirationDays
  .num 1 .i8 .be,  -- 40: expirationType
  .fixed 2 2 0x20 false  -- 41: shareProperty
]
/-- `decode`, Extend100701.java:44-49. -/
def dec : List DecStmt := [
  .num 0 .i16 .be,  -- 46: expirationDays
  .num 1 .i8 .be,  -- 47: expirationType
  .fixed 2 2 0x20 false  -- 48: shareProperty
]
/-- `hashCode`, Extend100701.java:51. -/
def hash : HashBody := .fields [0, 1, 2]
/-- `equals`, Extend100701.java:56. -/
def eqs : List (Nat × Nat) := [(0, 0), (1, 1), (2, 2)]
/-- `toString`, Extend100701.java:70. -/
def str : List StrPart := [.lit "Extend100701 [", .lit "expirationDays=", .field 0, .lit ", expirationType=", .field 1, .lit ", shareProperty=", .field 2, .lit "]"]
/-- szse-bin/src/main/java/com/finproto/szse/bin/messages/Extend100701.java:8-81 -/
def decl : ClassDecl := ⟨"Extend100701", fields, acc, enc, dec, hash, eqs, str⟩
end Szse.Extend100701

/-! ### szse-bin/src/main/java/com/finproto/szse/bin/messages/Extend101401.java:8-159 -/
namespace Szse.Extend101401
/-- Fields, Extend101401.java:9-16. -/
def fields : List (String × FTy) := [("stopPx", .prim .i64), ("minQty", .prim .i64), ("maxPriceLevels", .prim .i16), ("timeInForce", .str), ("positionEffect", .str), ("coveredOrUncovered", .prim .i8), ("contractAccountCode", .str), ("secondaryOrderId", .str)]
/-- Accessors (property, getter field, setter field), Extend101401.java:18-82. -/
def acc : List (String × Nat × Nat) := [("StopPx", 0, 0), ("MinQty", 1, 1), ("MaxPriceLevels", 2, 2), ("TimeInForce", 3, 3), ("PositionEffect", 4, 4), ("CoveredOrUncovered", 5, 5), ("ContractAccountCode", 6, 6), ("SecondaryOrderId", 7, 7)]
/-- `encode`, Extend101401.java:82-92. -/
def enc : List EncStmt := [
  .num 0 .i64 .be,  -- 84: stopPx
  .num 1 .i64 .be,  -- 85: minQty
  .num 2 .i16 .be,  -- 86: maxPriceLevels
  .fixed 3 1 0x20 false,  -- 87: timeInForce
  .fixed 4 1 0x20 false,  -- 88: positionEffect
  .num 5 .i8 .be,  -- 89: coveredOrUncovered
  .fixed 6 6 0x20 false,  -- 90: contractAccountCode
  .fixed 7 16 0x20 false  -- 91: secondaryOrderId
]
/-- `decode`, Extend101401.java:94-104. -/
def dec : List DecStmt := [
  .num 0 .i64 .be,  -- 96: stopPx
  .num 1 .i64 .be,  -- 97: minQty
  .num 2 .i16 .be,  -- 98: maxPriceLevels
  .fixed 3 1 0x20 false,  -- 99: timeInForce
  .fixed 4 1 0x20 false,  -- 100: positionEffect
  .num 5 .i8 .be,  -- 101: coveredOrUncovered
  .fixed 6 6 0x20 false,  -- 102: contractAccountCode
  .fixed 7 16 0x20 false  -- 103: secondaryOrderId
]
/-- `hashCode`, Extend101401.java:106. -/
def hash : HashBody := .fields [0, 1, 2, 3, 4, 5, 6, 7]
/-- `equals`, Extend101401.java:119. -/
def eqs : List (Nat × Nat) := [(0, 0), (1, 1), (2, 2), (3, 3), (4, 4), (5, 5), (6, 6), (7, 7)]
/-- `toString`, Extend101401.java:138. -/
def str : List StrPart := [.lit "Extend101401 [", .lit "stopPx=", .field 0, .lit ", minQty=", .field 1, .lit ", maxPriceLevels=", .field 2, .lit ", timeInForce=", .field 3, .lit ", positionEffect=", .field 4, .lit ", coveredOrUncovered=", .field 5, .lit ", contractAccountCode=", .field 6, .lit ", secondaryOrderId=", .field 7, .lit "]"]
/-- szse-bin/src/main/java/com/finproto/szse/bin/messages/Extend101401.java:8-159 -/
def decl : ClassDecl := ⟨"Extend101401", fields, acc, enc, dec, hash, eqs, str⟩
end Szse.Extend101401

/-! ### szse-bin/src/main/java/com/finproto/szse/bin/messages/Extend101501.java:8-50 -/
namespace Szse.Extend101501
/-- Fields, Extend101501.java:9-9. -/
def fields : List (String × FTy) := [("shareProperty", .str)]
/-- Accessors (property, getter field, setter field), Extend101501.java:11-19. -/
def acc : List (String × Nat × Nat) := [("ShareProperty", 0, 0)]
/-- `encode`, Extend101501.java:19-22. -/
def enc : List EncStmt := [
  .fixed 0 2 0x20 false  -- 21: shareProperty
]
/-- `decode`, Extend101501.java:24-27. -/
def dec : List DecStmt := [
  .fixed 0 2 0x20 false  -- 26: shareProperty
]
/-- `hashCode`, Extend101501.java:29. -/
def hash : HashBody := .fields [0]
/-- `equals`, Extend101501.java:34. -/
def eqs : List (Nat × Nat) := [(0, 0)]
/-- `toString`, Extend101501.java:46. -/
def str : List StrPart := [.lit "Extend101501 [", .lit "shareProperty=", .field 0, .lit "]"]
/-- szse-bin/src/main/java/com/finproto/szse/bin/messages/Extend101501.java:8-50 -/
def decl : ClassDecl := ⟨"Extend101501", fields, acc, enc, dec, hash, eqs, str⟩
end Szse.Extend101501

/-! ### szse-bin/src/main/java/com/finproto/szse/bin/messages/Extend101601.java:8-50 -/
namespace Szse.Extend101601
/-- Fields, Extend101601.java:9-9. -/
def fields : List (String × FTy) := [("contractAccountCode", .str)]
/-- Accessors (property, getter field, setter field), Extend101601.java:11-19. -/
def acc : List (String × Nat × Nat) := [("ContractAccountCode", 0, 0)]
/-- `encode`, Extend101601.java:19-22. -/
def enc : List EncStmt := [
  .fixed 0 6 0x20 false  -- 21: contractAccountCode
]
/-- `decode`, Extend101601.java:24-27. -/
def dec : List DecStmt := [
  .fixed 0 6 0x20 false  -- 26: contractAccountCode
]
/-- `hashCode`, Extend101601.java:29. -/
def hash : HashBody := .fields [0]
/-- `equals`, Extend101601.java:34. -/
def eqs : List (Nat × Nat) := [(0, 0)]
/-- `toString`, Extend101601.java:46. -/
def str : List StrPart := [.lit "Extend101601 [", .lit "contractAccountCode=", .field 0, .lit "]"]
/-- szse-bin/src/main/java/com/finproto/szse/bin/messages/Extend101601.java:8-50 -/
def decl : ClassDecl := ⟨"Extend101601", fields, acc, enc, dec, hash, eqs, str⟩
end Szse.Extend101601

/-! ### szse-bin/src/main/java/com/finproto/szse/bin/messages/Extend101701.java:8-50 -/
namespace Szse.Extend101701
/-- Fields, Extend101701.java:9-9. -/
def fields : List (String × FTy) := [("cashOrderQty", .prim .i64)]
/-- Accessors (property, getter field, setter field), Extend101701.java:11-19. -/
def acc : List (String × Nat × Nat) := [("CashOrderQty", 0, 0)]
/-- `encode`, Extend101701.java:19-22. -/
def enc : List EncStmt := [
  .num 0 .i64 .be  -- 21: cashOrderQty
]
/-- `decode`, Extend101701.java:24-27. -/
def dec : List DecStmt := [
  .num 0 .i64 .be  -- 26: cashOrderQty
]
/-- `hashCode`, Extend101701.java:29. -/
def hash : HashBody := .fields [0]
/-- `equals`, Extend101701.java:34. -/
def eqs : List (Nat × Nat) := [(0, 0)]
/-- `toString`, Extend101701.java:46. -/
def str : List StrPart := [.lit "Extend101701 [", .lit "cashOrderQty=", .field 0, .lit "]"]
/-- szse-bin/src/main/java/com/finproto/szse/bin/messages/Extend101701.java:8-50 -/
def decl : ClassDecl := ⟨"Extend101701", fields, acc, enc, dec, hash, eqs, str⟩
end Szse.Extend101701

/-! ### szse-bin/src/main/java/com/finproto/szse/bin/messages/Extend101801.java:8-50 -/
namespace Szse.Extend101801
/-- Fields, Extend101801.java:9-9. -/
def fields : List (String × FTy) := [("tenderer", .str)]
/-- Accessors (property, getter field, setter field), Extend101801.java:11-19. -/
def acc : List (String × Nat × Nat) := [("Tenderer", 0, 0)]
/-- `encode`, Extend101801.java:19-22. -/
def enc : List EncStmt := [
  .fixed 0 6 0x20 false  -- 21: tenderer
]
/-- `decode`, Extend101801.java:24-27. -/
def dec : List DecStmt := [
  .fixed 0 6 0x20 false  -- 26: tenderer
]
/-- `hashCode`, Extend101801.java:29. -/
def hash : HashBody := .fields [0]
/-- `equals`, Extend101801.java:34. -/
def eqs : List (Nat × Nat) := [(0, 0)]
/-- `toString`, Extend101801.java:46. -/
def str : List StrPart := [.lit "Extend101801 [", .lit "tenderer=", .field 0, .lit "]"]
/-- szse-bin/src/main/java/com/finproto/szse/bin/messages/Extend101801.java:8-50 -/
def decl : ClassDecl := ⟨"Extend101801", fields, acc, enc, dec, hash, eqs, str⟩
end Szse.Extend101801

/-! ### szse-bin/src/main/java/com/finproto/szse/bin/messages/Extend102701.java:8-67 -/
namespace Szse.Extend102701
/-- Fields, Extend102701.java:9-10. -/
def fields : List (String × FTy) := [("disposalPbu", .str), ("disposalAccountId", .str)]
/-- Accessors (property, getter field, setter field), Extend102701.java:12-28. -/
def acc : List (String × Nat × Nat) := [("DisposalPbu", 0, 0), ("DisposalAccountId", 1, 1)]
/-- `encode`, Extend102701.java:28-32. -/
def enc : List EncStmt := [
  .fixed 0 6 0x20 false,  -- 30: disposalPbu
  .fixed 1 12 0x20 false  -- 31: disposalAccountId
]
/-- `decode`, Extend102701.java:34-38. -/
def dec : List DecStmt := [
  .fixed 0 6 0x20 false,  -- 36: disposalPbu
  .fixed 1 12 0x20 false  -- 37: disposalAccountId
]
/-- `hashCode`, Extend102701.java:40. -/
def hash : HashBody := .fields [0, 1]
/-- `equals`, Extend102701.java:45. -/
def eqs : List (Nat × Nat) := [(0, 0), (1, 1)]
/-- `toString`, Extend102701.java:58. -/
def str : List StrPart := [.lit "Extend102701 [", .lit "disposalPbu=", .field 0, .lit ", disposalAccountId=", .field 1, .lit "]"]
/-- szse-bin/src/main/java/com/finproto/szse/bin/messages/Extend102701.java:8-67 -/
def decl : ClassDecl := ⟨"Extend102701", fields, acc, enc, dec, hash, eqs, str⟩
end Szse.Extend102701

/-! ### szse-bin/src/main/java/com/finproto/szse/bin/messages/Extend102801.java:8-67 -/
namespace Szse.Extend102801
/-- Fields, Extend102801.java:9-10. -/
def fields : List (String × FTy) := [("lenderPbu", .str), ("lenderAccountId", .str)]
/-- Accessors (property, getter field, setter field), Extend102801.java:12-28. -/
def acc : List (String × Nat × Nat) := [("LenderPbu", 0, 0), ("LenderAccountId", 1, 1)]
/-- `encode`, Extend102801.java:28-32. -/
def enc : List EncStmt := [
  .fixed 0 6 0x20 false,  -- 30: lenderPbu
  .fixed 1 12 0x20 false  -- 31: lenderAccountId
]
/-- `decode`, Extend102801.java:34-38. -/
def dec : List DecStmt := [
  .fixed 0 6 0x20 false,  -- 36: lenderPbu
  .fixed 1 12 0x20 false  -- 37: lenderAccountId
]
/-- `hashCode`, Extend102801.java:40. -/
def hash : HashBody := .fields [0, 1]
/-- `equals`, Extend102801.java:45. -/
def eqs : List (Nat × Nat) := [(0, 0), (1, 1)]
/-- `toString`, Extend102801.java:58. -/
def str : List StrPart := [.lit "Extend102801 [", .lit "lenderPbu=", .field 0, .lit ", lenderAccountId=", .field 1, .lit "]"]
/-- szse-bin/src/main/java/com/finproto/szse/bin/messages/Extend102801.java:8-67 -/
def decl : ClassDecl := ⟨"Extend102801", fields, acc, enc, dec, hash, eqs, str⟩
end Szse.Extend102801

/-! ### szse-bin/src/main/java/com/finproto/szse/bin/messages/Extend102901.java:8-67 -/
namespace Szse.Extend102901
/-- Fields, Extend102901.java:9-10. -/
def fields : List (String × FTy) := [("deductionPbu", .str), ("deductionAccountId", .str)]
/-- Accessors (property, getter field, setter field), Extend102901.java:12-28. -/
def acc : List (String × Nat × Nat) := [("DeductionPbu", 0, 0), ("DeductionAccountId", 1, 1)]
/-- `encode`, Extend102901.java:28-32. -/
def enc : List EncStmt := [
  .fixed 0 6 0x20 false,  -- 30: deductionPbu
  .fixed 1 12 0x20 false  -- 31: deductionAccountId
]
/-- `decode`, Extend102901.java:34-38. -/
def dec : List DecStmt := [
  .fixed 0 6 0x20 false,  -- 36: deductionPbu
  .fixed 1 12 0x20 false  -- 37: deductionAccountId
]
/-- `hashCode`, Extend102901.java:40. -/
def hash : HashBody := .fields [0, 1]
/-- `equals`, Extend102901.java:45. -/
def eqs : List (Nat × Nat) := [(0, 0), (1, 1)]
/-- `toString`, Extend102901.java:58. -/
def str : List StrPart := [.lit "Extend102901 [", .lit "deductionPbu=", .field 0, .lit ", deductionAccountId=", .field 1, .lit "]"]
/-- szse-bin/src/main/java/com/finproto/szse/bin/messages/Extend102901.java:8-67 -/
def decl : ClassDecl := ⟨"Extend102901", fields, acc, enc, dec, hash, eqs, str⟩
end Szse.Extend102901

/-! ### szse-bin/src/main/java/com/finproto/szse/bin/messages/Extend103501.java:8-50 -/
namespace Szse.Extend103501
/-- Fields, Extend103501.java:9-9. -/
def fields : List (String × FTy) := [("contractAccountCode", .str)]
/-- Accessors (property, getter field, setter field), Extend103501.java:11-19. -/
def acc : List (String × Nat × Nat) := [("ContractAccountCode", 0, 0)]
/-- `encode`, Extend103501.java:19-22. -/
def enc : List EncStmt := [
  .fixed 0 6 0x20 false  -- 21: contractAccountCode
]
/-- `decode`, Extend103501.java:24-27. -/
def dec : List DecStmt := [
  .fixed 0 6 0x20 false  -- 26: contractAccountCode
]
/-- `hashCode`, Extend103501.java:29. -/
def hash : HashBody := .fields [0]
/-- `equals`, Extend103501.java:34. -/
def eqs : List (Nat × Nat) := [(0, 0)]
/-- `toString`, Extend103501.java:46. -/
def str : List StrPart := [.lit "Extend103501 [", .lit "contractAccountCode=", .field 0, .lit "]"]
/-- szse-bin/src/main/java/com/finproto/szse/bin/messages/Extend103501.java:8-50 -/
def decl : ClassDecl := ⟨"Extend103501", fields, acc, enc, dec, hash, eqs, str⟩
end Szse.Extend103501

/-! ### szse-bin/src/main/java/com/finproto/szse/bin/messages/Extend103701.java:8-50 -/
namespace Szse.Extend103701
/-- Fields, Extend103701.java:9-9. -/
def fields : List (String × FTy) := [("cashMargin", .str)]
/-- Accessors (property, getter field, setter field), Extend103701.java:11-19. -/
def acc : List (String × Nat × Nat) := [("CashMargin", 0, 0)]
/-- `encode`, Extend103701.java:19-22. -/
def enc : List EncStmt := [
  .fixed 0 1 0x20 false  -- 21: cashMargin
]
/-- `decode`, Extend103701.java:24-27. -/
def dec : List DecStmt := [
  .fixed 0 1 0x20 false  -- 26: cashMargin
]
/-- `hashCode`, Extend103701.java:29. -/
def hash : HashBody := .fields [0]
/-- `equals`, Extend103701.java:34. -/
def eqs : List (Nat × Nat) := [(0, 0)]
/-- `toString`, Extend103701.java:46. -/
def str : List StrPart := [.lit "Extend103701 [", .lit "cashMargin=", .field 0, .lit "]"]
/-- szse-bin/src/main/java/com/finproto/szse/bin/messages/Extend103701.java:8-50 -/
def decl : ClassDecl := ⟨"Extend103701", fields, acc, enc, dec, hash, eqs, str⟩
end Szse.Extend103701

/-! ### szse-bin/src/main/java/com/finproto/szse/bin/messages/Extend104101.java:8-109 -/
namespace Szse.Extend104101
/-- Fields, Extend104101.java:9-13. -/
def fields : List (String × FTy) := [("stopPx", .prim .i64), ("minQty", .prim .i64), ("maxPriceLevels", .prim .i16), ("timeInForce", .str), ("cashMargin", .str)]
/-- Accessors (property, getter field, setter field), Extend104101.java:15-55. -/
def acc : List (String × Nat × Nat) := [("StopPx", 0, 0), ("MinQty", 1, 1), ("MaxPriceLevels", 2, 2), ("TimeInForce", 3, 3), ("CashMargin", 4, 4)]
/-- `encode`, Extend104101.java:55-62. -/
def enc : List EncStmt := [
  .num 0 .i64 .be,  -- 57: stopPx
  .num 1 .i64 .be,  -- 58: minQty
  .num 2 .i16 .be,  -- 59: maxPriceLevels
  .fixed 3 1 0x20 false,  -- 60: timeInForce
  .fixed 4 1 0x20 false  -- 61: cashMargin
]
/-- `decode`, Extend104101.java:64-71. -/
def dec : List DecStmt := [
  .num 0 .i64 .be,  -- 66: stopPx
  .num 1 .i64 .be,  -- 67: minQty
  .num 2 .i16 .be,  -- 68: maxPriceLevels
  .fixed 3 1 0x20 false,  -- 69: timeInForce
  .fixed 4 1 0x20 false  -- 70: cashMargin
]
/-- `hashCode`, Extend104101.java:73. -/
def hash : HashBody := .fields [0, 1, 2, 3, 4]
/-- `equals`, Extend104101.java:78. -/
def eqs : List (Nat × Nat) := [(0, 0), (1, 1), (2, 2), (3, 3), (4, 4)]
/-- `toString`, Extend104101.java:94. -/
def str : List StrPart := [.lit "Extend104101 [", .lit "stopPx=", .field 0, .lit ", minQty=", .field 1, .lit ", maxPriceLevels=", .field 2, .lit ", timeInForce=", .field 3, .lit ", cashMargin=", .field 4, .lit "]"]
/-- szse-bin/src/main/java/com/finproto/szse/bin/messages/Extend104101.java:8-109 -/
def decl : ClassDecl := ⟨"Extend104101", fields, acc, enc, dec, hash, eqs, str⟩
end Szse.Extend104101

/-! ### szse-bin/src/main/java/com/finproto/szse/bin/messages/Extend104128.java:8-294 -/
namespace Szse.Extend104128
/-- Fields, Extend104128.java:9-25. -/
def fields : List (String × FTy) := [("memberId", .str), ("investorType", .str), ("investorId", .str), ("investorName", .str), ("traderCode", .str), ("secondaryOrderId", .str), ("bidTransType", .prim .i16), ("bidExecInstType", .prim .i16), ("lowLimitPrice", .prim .i64), ("highLimitPrice", .prim .i64), ("minQty", .prim .i64), ("tradeDate", .prim .i32), ("settlType", .prim .i16), ("settlPeriod", .prim .i8), ("preTradeAnonymity", .prim .i8), ("cashMargin", .str), ("memo", .str)]
/-- Accessors (property, getter field, setter field), Extend104128.java:27-163. -/
def acc : List (String × Nat × Nat) := [("MemberId", 0, 0), ("InvestorType", 1, 1), ("InvestorId", 2, 2), ("InvestorName", 3, 3), ("TraderCode", 4, 4), ("SecondaryOrderId", 5, 5), ("BidTransType", 6, 6), ("BidExecInstType", 7, 7), ("LowLimitPrice", 8, 8), ("HighLimitPrice", 9, 9), ("MinQty", 10, 10), ("TradeDate", 11, 11), ("SettlType", 12, 12), ("SettlPeriod", 13, 13), ("PreTradeAnonymity", 14, 14), ("CashMargin", 15, 15), ("Memo", 16, 16)]
/-- `encode`, Extend104128.java:163-182. -/
def enc : List EncStmt := [
  .fixed 0 6 0x20 false,  -- 165: memberId
  .fixed 1 2 0x20 false,  -- 166: investorType
  .fixed 2 10 0x20 false,  -- 167: investorId
  .fixed 3 120 0x20 false,  -- 168: investorName
  .fixed 4 8 0x20 false,  -- 169: traderCode
  .fixed 5 16 0x20 false,  -- 170: secondaryOrderId
  .num 6 .i16 .be,  -- 171: bidTransType
  .num 7 .i16 .be,  -- 172: bidExecInstType
  .num 8 .i64 .be,  -- 173: lowLimitPrice
  .num 9 .i64 .be,  -- 174: highLimitPrice
  .num 10 .i64 .be,  -- 175: minQty
  .num 11 .i32 .be,  -- 176: tradeDate
  .num 12 .i16 .be,  -- 177: settlType
  .num 13 .i8 .be,  -- 178: settlPeriod
  .num 14 .i8 .be,  -- 179: preTradeAnonymity
  .fixed 15 1 0x20 false,  -- 180: cashMargin
  .fixed 16 160 0x20 false  -- 181: memo
]
/-- `decode`, Extend104128.java:184-203. -/
def dec : List DecStmt := [
  .fixed 0 6 0x20 false,  -- 186: memberId
  .fixed 1 2 0x20 false,  -- 187: investorType
  .fixed 2 10 0x20 false,  -- 188: investorId
  .fixed 3 120 0x20 false,  -- 189: investorName
  .fixed 4 8 0x20 false,  -- 190: traderCode
  .fixed 5 16 0x20 false,  -- 191: secondaryOrderId
  .num 6 .i16 .be,  -- 192: bidTransType
  .num 7 .i16 .be,  -- 193: bidExecInstType
  .num 8 .i64 .be,  -- 194: lowLimitPrice
  .num 9 .i64 .be,  -- 195: highLimitPrice
  .num 10 .i64 .be,  -- 196: minQty
  .num 11 .i32 .be,  -- 197: tradeDate
  .num 12 .i16 .be,  -- 198: settlType
  .num 13 .i8 .be,  -- 199: settlPeriod
  .num 14 .i8 .be,  -- 200: preTradeAnonymity
  .fixed 15 1 0x20 false,  -- 201: cashMargin
  .fixed 16 160 0x20 false  -- 202: memo
]
/-- `hashCode`, Extend104128.java:205. -/
def hash : HashBody := .fields [0, 1, 2, 3, 4, 5, 6, 7, 8, 9, 10, 11, 12, 13, 14, 15, 16]
/-- `equals`, Extend104128.java:227. -/
def eqs : List (Nat × Nat) := [(0, 0), (1, 1), (2, 2), (3, 3), (4, 4), (5, 5), (6, 6), (7, 7), (8, 8), (9, 9), (10, 10), (11, 11), (12, 12), (13, 13), (14, 14), (15, 15), (16, 16)]
/-- `toString`, Extend104128.java:255. -/
def str : List StrPart := [.lit "Extend104128 [", .lit "memberId=", .field 0, .lit ", investorType=", .field 1, .lit ", investorId=", .field 2, .lit ", investorName=", .field 3, .lit ", traderCode=", .field 4, .lit ", secondaryOrderId=", .field 5, .lit ", bidTransType=", .field 6, .lit ", bidExecInstType=", .field 7, .lit ", lowLimitPrice=", .field 8, .lit ", highLimitPrice=", .field 9, .lit ", minQty=", .field 10, .lit ", tradeDate=", .field 11, .lit ", settlType=", .field 12, .lit ", settlPeriod=", .field 13, .lit ", preTradeAnonymity=", .field 14, .lit ", cashMargin=", .field 15, .lit ", memo=", .field 16, .lit "]"]
/-- szse-bin/src/main/java/com/finproto/szse/bin/messages/Extend104128.java:8-294 -/
def decl : ClassDecl := ⟨"Extend104128", fields, acc, enc, dec, hash, eqs, str⟩
end Szse.Extend104128

/-! ### szse-bin/src/main/java/com/finproto/szse/bin/messages/Extend104701.java:8-50 -/
namespace Szse.Extend104701
/-- Fields, Extend104701.java:9-9. -/
def fields : List (String × FTy) := [("secondaryOrderId", .str)]
/-- Accessors (property, getter field, setter field), Extend104701.java:11-19. -/
def acc : List (String × Nat × Nat) := [("SecondaryOrderId", 0, 0)]
/-- `encode`, Extend104701.java:19-22. -/
def enc : List EncStmt := [
  .fixed 0 16 0x20 false  -- 21: secondaryOrderId
]
/-- `decode`, Extend104701.java:24-27. -/
def dec : List DecStmt := [
  .fixed 0 16 0x20 false  -- 26: secondaryOrderId
]
/-- `hashCode`, Extend104701.java:29. -/
def hash : HashBody := .fields [0]
/-- `equals`, Extend104701.java:34. -/
def eqs : List (Nat × Nat) := [(0, 0)]
/-- `toString`, Extend104701.java:46. -/
def str : List StrPart := [.lit "Extend104701 [", .lit "secondaryOrderId=", .field 0, .lit "]"]
/-- szse-bin/src/main/java/com/finproto/szse/bin/messages/Extend104701.java:8-50 -/
def decl : ClassDecl := ⟨"Extend104701", fields, acc, enc, dec, hash, eqs, str⟩
end Szse.Extend104701

/-! ### szse-bin/src/main/java/com/finproto/szse/bin/messages/Extend106301.java:8-109 -/
namespace Szse.Extend106301
/-- Fields, Extend106301.java:9-13. -/
def fields : List (String × FTy) := [("stopPx", .prim .i64), ("minQty", .prim .i64), ("maxPriceLevels", .prim .i16), ("timeInForce", .str), ("lotType", .str)]
/-- Accessors (property, getter field, setter field), Extend106301.java:15-55. -/
def acc : List (String × Nat × Nat) := [("StopPx", 0, 0), ("MinQty", 1, 1), ("MaxPriceLevels", 2, 2), ("TimeInForce", 3, 3), ("LotType", 4, 4)]
/-- `encode`, Extend106301.java:55-62. -/
def enc : List EncStmt := [
  .num 0 .i64 .be,  -- 57: stopPx
  .num 1 .i64 .be,  -- 58: minQty
  .num 2 .i16 .be,  -- 59: maxPriceLevels
  .fixed 3 1 0x20 false,  -- 60: timeInForce
  .fixed 4 1 0x20 false  -- 61: lotType
]
/-- `decode`, Extend106301.java:64-71. -/
def dec : List DecStmt := [
  .num 0 .i64 .be,  -- 66: stopPx
  .num 1 .i64 .be,  -- 67: minQty
  .num 2 .i16 .be,  -- 68: maxPriceLevels
  .fixed 3 1 0x20 false,  -- 69: timeInForce
  .fixed 4 1 0x20 false  -- 70: lotType
]
/-- `hashCode`, Extend106301.java:73. -/
def hash : HashBody := .fields [0, 1, 2, 3, 4]
/-- `equals`, Extend106301.java:78. -/
def eqs : List (Nat × Nat) := [(0, 0), (1, 1), (2, 2), (3, 3), (4, 4)]
/-- `toString`, Extend106301.java:94. -/
def str : List StrPart := [.lit "Extend106301 [", .lit "stopPx=", .field 0, .lit ", minQty=", .field 1, .lit ", maxPriceLevels=", .field 2, .lit ", timeInForce=", .field 3, .lit ", lotType=", .field 4, .lit "]"]
/-- szse-bin/src/main/java/com/finproto/szse/bin/messages/Extend106301.java:8-109 -/
def decl : ClassDecl := ⟨"Extend106301", fields, acc, enc, dec, hash, eqs, str⟩
end Szse.Extend106301

/-! ### szse-bin/src/main/java/com/finproto/szse/bin/messages/Extend200102.java:8-109 -/
namespace Szse.Extend200102
/-- Fields, Extend200102.java:9-13. -/
def fields : List (String × FTy) := [("stopPx", .prim .i64), ("minQty", .prim .i64), ("maxPriceLevels", .prim .i16), ("timeInForce", .str), ("cashMargin", .str)]
/-- Accessors (property, getter field, setter field), Extend200102.java:15-55. -/
def acc : List (String × Nat × Nat) := [("StopPx", 0, 0), ("MinQty", 1, 1), ("MaxPriceLevels", 2, 2), ("TimeInForce", 3, 3), ("CashMargin", 4, 4)]
/-- `encode`, Extend200102.java:55-62. -/
def enc : List EncStmt := [
  .num 0 .i64 .be,  -- 57: stopPx
  .num 1 .i64 .be,  -- 58: minQty
  .num 2 .i16 .be,  -- 59: maxPriceLevels
  .fixed 3 1 0x20 false,  -- 60: timeInForce
  .fixed 4 1 0x20 false  -- 61: cashMargin
]
/-- `decode`, Extend200102.java:64-71. -/
def dec : List DecStmt := [
  .num 0 .i64 .be,  -- 66: stopPx
  .num 1 .i64 .be,  -- 67: minQty
  .num 2 .i16 .be,  -- 68: maxPriceLevels
  .fixed 3 1 0x20 false,  -- 69: timeInForce
  .fixed 4 1 0x20 false  -- 70: cashMargin
]
/-- `hashCode`, Extend200102.java:73. -/
def hash : HashBody := .fields [0, 1, 2, 3, 4]
/-- `equals`, Extend200102.java:78. -/
def eqs : List (Nat × Nat) := [(0, 0), (1, 1), (2, 2), (3, 3), (4, 4)]
/-- `toString`, Extend200102.java:94. -/
def str : List StrPart := [.lit "Extend200102 [", .lit "stopPx=", .field 0, .lit ", minQty=", .field 1, .lit ", maxPriceLevels=", .field 2, .lit ", timeInForce=", .field 3, .lit ", cashMargin=", .field 4, .lit "]"]
/-- szse-bin/src/main/java/com/finproto/szse/bin/messages/Extend200102.java:8-109 -/
def decl : ClassDecl := ⟨"Extend200102", fields, acc, enc, dec, hash, eqs, str⟩
end Szse.Extend200102

/-! ### szse-bin/src/main/java/com/finproto/szse/bin/messages/Extend200115.java:8-50 -/
namespace Szse.Extend200115
/-- Fields, Extend200115.java:9-9. -/
def fields : List (String × FTy) := [("cashMargin", .str)]
/-- Accessors (property, getter field, setter field), Extend200115.java:11-19. -/
def acc : List (String × Nat × Nat) := [("CashMargin", 0, 0)]
/-- `encode`, Extend200115.java:19-22. -/
def enc : List EncStmt := [
  .fixed 0 1 0x20 false  -- 21: cashMargin
]
/-- `decode`, Extend200115.java:24-27. -/
def dec : List DecStmt := [
  .fixed 0 1 0x20 false  -- 26: cashMargin
]
/-- `hashCode`, Extend200115.java:29. -/
def hash : HashBody := .fields [0]
/-- `equals`, Extend200115.java:34. -/
def eqs : List (Nat × Nat) := [(0, 0)]
/-- `toString`, Extend200115.java:46. -/
def str : List StrPart := [.lit "Extend200115 [", .lit "cashMargin=", .field 0, .lit "]"]
/-- szse-bin/src/main/java/com/finproto/szse/bin/messages/Extend200115.java:8-50 -/
def decl : ClassDecl := ⟨"Extend200115", fields, acc, enc, dec, hash, eqs, str⟩
end Szse.Extend200115

/-! ### szse-bin/src/main/java/com/finproto/szse/bin/messages/Extend200202.java:8-95 -/
namespace Szse.Extend200202
/-- Fields, Extend200202.java:9-12. -/
def fields : List (String × FTy) := [("stopPx", .prim .i64), ("minQty", .prim .i64), ("maxPriceLevels", .prim .i16), ("timeInForce", .str)]
/-- Accessors (property, getter field, setter field), Extend200202.java:14-46. -/
def acc : List (String × Nat × Nat) := [("StopPx", 0, 0), ("MinQty", 1, 1), ("MaxPriceLevels", 2, 2), ("TimeInForce", 3, 3)]
/-- `encode`, Extend200202.java:46-52. -/
def enc : List EncStmt := [
  .num 0 .i64 .be,  -- 48: stopPx
  .num 1 .i64 .be,  -- 49: minQty
  .num 2 .i16 .be,  -- 50: maxPriceLevels
  .fixed 3 1 0x20 false  -- 51: timeInForce
]
/-- `decode`, Extend200202.java:54-60. -/
def dec : List DecStmt := [
  .num 0 .i64 .be,  -- 56: stopPx
  .num 1 .i64 .be,  -- 57: minQty
  .num 2 .i16 .be,  -- 58: maxPriceLevels
  .fixed 3 1 0x20 false  -- 59: timeInForce
]
/-- `hashCode`, Extend200202.java:62. -/
def hash : HashBody := .fields [0, 1, 2, 3]
/-- `equals`, Extend200202.java:67. -/
def eqs : List (Nat × Nat) := [(0, 0), (1, 1), (2, 2), (3, 3)]
/-- `toString`, Extend200202.java:82. -/
def str : List StrPart := [.lit "Extend200202 [", .lit "stopPx=", .field 0, .lit ", minQty=", .field 1, .lit ", maxPriceLevels=", .field 2, .lit ", timeInForce=", .field 3, .lit "]"]
/-- szse-bin/src/main/java/com/finproto/szse/bin/messages/Extend200202.java:8-95 -/
def decl : ClassDecl := ⟨"Extend200202", fields, acc, enc, dec, hash, eqs, str⟩
end Szse.Extend200202

/-! ### szse-bin/src/main/java/com/finproto/szse/bin/messages/Extend200215.java:8-50 -/
namespace Szse.Extend200215
/-- Fields, Extend200215.java:9-9. -/
def fields : List (String × FTy) := [("maturityDate", .prim .i32)]
/-- Accessors (property, getter field, setter field), Extend200215.java:11-19. -/
def acc : List (String × Nat × Nat) := [("MaturityDate", 0, 0)]
/-- `encode`, Extend200215.java:19-22. -/
def enc : List EncStmt := [
  .num 0 .i32 .be  -- 21: maturityDate
]
/-- `decode`, Extend200215.java:24-27. -/
def dec : List DecStmt := [
  .num 0 .i32 .be  -- 26: maturityDate
]
/-- `hashCode`, Extend200215.java:29. -/
def hash : HashBody := .fields [0]
/-- `equals`, Extend200215.java:34. -/
def eqs : List (Nat × Nat) := [(0, 0)]
/-- `toString`, Extend200215.java:46. -/
def str : List StrPart := [.lit "Extend200215 [", .lit "maturityDate=", .field 0, .lit "]"]
/-- szse-bin/src/main/java/com/finproto/szse/bin/messages/Extend200215.java:8-50 -/
def decl : ClassDecl := ⟨"Extend200215", fields, acc, enc, dec, hash, eqs, str⟩
end Szse.Extend200215

/-! ### szse-bin/src/main/java/com/finproto/szse/bin/messages/Extend200302.java:8-95 -/
namespace Szse.Extend200302
/-- Fields, Extend200302.java:9-12. -/
def fields : List (String × FTy) := [("stopPx", .prim .i64), ("minQty", .prim .i64), ("maxPriceLevels", .prim .i16), ("timeInForce", .str)]
/-- Accessors (property, getter field, setter field), Extend200302.java:14-46. -/
def acc : List (String × Nat × Nat) := [("StopPx", 0, 0), ("MinQty", 1, 1), ("MaxPriceLevels", 2, 2), ("TimeInForce", 3, 3)]
/-- `encode`, Extend200302.java:46-52. -/
def enc : List EncStmt := [
  .num 0 .i64 .be,  -- 48: stopPx
  .num 1 .i64 .be,  -- 49: minQty
  .num 2 .i16 .be,  -- 50: maxPriceLevels
  .fixed 3 1 0x20 false  -- 51: timeInForce
]
/-- `decode`, Extend200302.java:54-60. -/
def dec : List DecStmt := [
  .num 0 .i64 .be,  -- 56: stopPx
  .num 1 .i64 .be,  -- 57: minQty
  .num 2 .i16 .be,  -- 58: maxPriceLevels
  .fixed 3 1 0x20 false  -- 59: timeInForce
]
/-- `hashCode`, Extend200302.java:62. -/
def hash : HashBody := .fields [0, 1, 2, 3]
/-- `equals`, Extend200302.java:67. -/
def eqs : List (Nat × Nat) := [(0, 0), (1, 1), (2, 2), (3, 3)]
/-- `toString`, Extend200302.java:82. -/
def str : List StrPart := [.lit "Extend200302 [", .lit "stopPx=", .field 0, .lit ", minQty=", .field 1, .lit ", maxPriceLevels=", .field 2, .lit ", timeInForce=", .field 3, .lit "]"]
/-- szse-bin/src/main/java/com/finproto/szse/bin/messages/Extend200302.java:8-95 -/
def decl : ClassDecl := ⟨"Extend200302", fields, acc, enc, dec, hash, eqs, str⟩
end Szse.Extend200302

/-! ### szse-bin/src/main/java/com/finproto/szse/bin/messages/Extend200315.java:8-50 -/
namespace Szse.Extend200315
/-- Fields, Extend200315.java:9-9. -/
def fields : List (String × FTy) := [("maturityDate", .prim .i32)]
/-- Accessors (property, getter field, setter field), Extend200315.java:11-19. -/
def acc : List (String × Nat × Nat) := [("MaturityDate", 0, 0)]
/-- `encode`, Extend200315.java:19-22. -/
def enc : List EncStmt := [
  .num 0 .i32 .be  -- 21: maturityDate
]
/-- `decode`, Extend200315.java:24-27. -/
def dec : List DecStmt := [
  .num 0 .i32 .be  -- 26: maturityDate
]
/-- `hashCode`, Extend200315.java:29. -/
def hash : HashBody := .fields [0]
/-- `equals`, Extend200315.java:34. -/
def eqs : List (Nat × Nat) := [(0, 0)]
/-- `toString`, Extend200315.java:46. -/
def str : List StrPart := [.lit "Extend200315 [", .lit "maturityDate=", .field 0, .lit "]"]
/-- szse-bin/src/main/java/com/finproto/szse/bin/messages/Extend200315.java:8-50 -/
def decl : ClassDecl := ⟨"Extend200315", fields, acc, enc, dec, hash, eqs, str⟩
end Szse.Extend200315

/-! ### szse-bin/src/main/java/com/finproto/szse/bin/messages/Extend200402.java:8-159 -/
namespace Szse.Extend200402
/-- Fields, Extend200402.java:9-16. -/
def fields : List (String × FTy) := [("stopPx", .prim .i64), ("minQty", .prim .i64), ("maxPriceLevels", .prim .i16), ("timeInForce", .str), ("positionEffect", .str), ("coveredOrUncovered", .prim .i8), ("contractAccountCode", .str), ("secondaryOrderId", .str)]
/-- Accessors (property, getter field, setter field), Extend200402.java:18-82. -/
def acc : List (String × Nat × Nat) := [("StopPx", 0, 0), ("MinQty", 1, 1), ("MaxPriceLevels", 2, 2), ("TimeInForce", 3, 3), ("PositionEffect", 4, 4), ("CoveredOrUncovered", 5, 5), ("ContractAccountCode", 6, 6), ("SecondaryOrderId", 7, 7)]
/-- `encode`, Extend200402.java:82-92. -/
def enc : List EncStmt := [
  .num 0 .i64 .be,  -- 84: stopPx
  .num 1 .i64 .be,  -- 85: minQty
  .num 2 .i16 .be,  -- 86: maxPriceLevels
  .fixed 3 1 0x20 false,  -- 87: timeInForce
  .fixed 4 1 0x20 false,  -- 88: positionEffect
  .num 5 .i8 .be,  -- 89: coveredOrUncovered
  .fixed 6 6 0x20 false,  -- 90: contractAccountCode
  .fixed 7 16 0x20 false  -- 91: secondaryOrderId
]
/-- `decode`, Extend200402.java:94-104. -/
def dec : List DecStmt := [
  .num 0 .i64 .be,  -- 96: stopPx
  .num 1 .i64 .be,  -- 97: minQty
  .num 2 .i16 .be,  -- 98: maxPriceLevels
  .fixed 3 1 0x20 false,  -- 99: timeInForce
  .fixed 4 1 0x20 false,  -- 100: positionEffect
  .num 5 .i8 .be,  -- 101: coveredOrUncovered
  .fixed 6 6 0x20 false,  -- 102: contractAccountCode
  .fixed 7 16 0x20 false  -- 103: secondaryOrderId
]
/-- `hashCode`, Extend200402.java:106. -/
def hash : HashBody := .fields [0, 1, 2, 3, 4, 5, 6, 7]
/-- `equals`, Extend200402.java:119. -/
def eqs : List (Nat × Nat) := [(0, 0), (1, 1), (2, 2), (3, 3), (4, 4), (5, 5), (6, 6), (7, 7)]
/-- `toString`, Extend200402.java:138. -/
def str : List StrPart := [.lit "Extend200402 [", .lit "stopPx=", .field 0, .lit ", minQty=", .field 1, .lit ", maxPriceLevels=", .field 2, .lit ", timeInForce=", .field 3, .lit ", positionEffect=", .field 4, .lit ", coveredOrUncovered=", .field 5, .lit ", contractAccountCode=", .field 6, .lit ", secondaryOrderId=", .field 7, .lit "]"]
/-- szse-bin/src/main/java/com/finproto/szse/bin/messages/Extend200402.java:8-159 -/
def decl : ClassDecl := ⟨"Extend200402", fields, acc, enc, dec, hash, eqs, str⟩
end Szse.Extend200402

/-! ### szse-bin/src/main/java/com/finproto/szse/bin/messages/Extend200415.java:8-95 -/
namespace Szse.Extend200415
/-- Fields, Extend200415.java:9-12. -/
def fields : List (String × FTy) := [("positionEffect", .str), ("coveredOrUncovered", .prim .i8), ("contractAccountCode", .str), ("secondaryOrderId", .str)]
/-- Accessors (property, getter field, setter field), Extend200415.java:14-46. -/
def acc : List (String × Nat × Nat) := [("PositionEffect", 0, 0), ("CoveredOrUncovered", 1, 1), ("ContractAccountCode", 2, 2), ("SecondaryOrderId", 3, 3)]
/-- `encode`, Extend200415.java:46-52. -/
def enc : List EncStmt := [
  .fixed 0 1 0x20 false,  -- 48: positionEffect
  .num 1 .i8 .be,  -- 49: coveredOrUncovered
  .fixed 2 6 0x20 false,  -- 50: contractAccountCode
  .fixed 3 16 0x20 false  -- 51: secondaryOrderId
]
/-- `decode`, Extend200415.java:54-60. -/
def dec : List DecStmt := [
  .fixed 0 1 0x20 false,  -- 56: positionEffect
  .num 1 .i8 .be,  -- 57: coveredOrUncovered
  .fixed 2 6 0x20 false,  -- 58: contractAccountCode
  .fixed 3 16 0x20 false  -- 59: secondaryOrderId
]
/-- `hashCode`, Extend200415.java:62. -/
def hash : HashBody := .fields [0, 1, 2, 3]
/-- `equals`, Extend200415.java:67. -/
def eqs : List (Nat × Nat) := [(0, 0), (1, 1), (2, 2), (3, 3)]
/-- `toString`, Extend200415.java:82. -/
def str : List StrPart := [.lit "Extend200415 [", .lit "positionEffect=", .field 0, .lit ", coveredOrUncovered=", .field 1, .lit ", contractAccountCode=", .field 2, .lit ", secondaryOrderId=", .field 3, .lit "]"]
/-- szse-bin/src/main/java/com/finproto/szse/bin/messages/Extend200415.java:8-95 -/
def decl : ClassDecl := ⟨"Extend200415", fields, acc, enc, dec, hash, eqs, str⟩
end Szse.Extend200415

/-! ### szse-bin/src/main/java/com/finproto/szse/bin/messages/Extend200502.java:8-67 -/
namespace Szse.Extend200502
/-- Fields, Extend200502.java:9-10. -/
def fields : List (String × FTy) := [("confirmId", .str), ("cashMargin", .str)]
/-- Accessors (property, getter field, setter field), Extend200502.java:12-28. -/
def acc : List (String × Nat × Nat) := [("ConfirmId", 0, 0), ("CashMargin", 1, 1)]
/-- `encode`, Extend200502.java:28-32. -/
def enc : List EncStmt := [
  .fixed 0 8 0x20 false,  -- 30: confirmId
  .fixed 1 1 0x20 false  -- 31: cashMargin
]
/-- `decode`, Extend200502.java:34-38. -/
def dec : List DecStmt := [
  .fixed 0 8 0x20 false,  -- 36: confirmId
  .fixed 1 1 0x20 false  -- 37: cashMargin
]
/-- `hashCode`, Extend200502.java:40. -/
def hash : HashBody := .fields [0, 1]
/-- `equals`, Extend200502.java:45. -/
def eqs : List (Nat × Nat) := [(0, 0), (1, 1)]
/-- `toString`, Extend200502.java:58. -/
def str : List StrPart := [.lit "Extend200502 [", .lit "confirmId=", .field 0, .lit ", cashMargin=", .field 1, .lit "]"]
/-- szse-bin/src/main/java/com/finproto/szse/bin/messages/Extend200502.java:8-67 -/
def decl : ClassDecl := ⟨"Extend200502", fields, acc, enc, dec, hash, eqs, str⟩
end Szse.Extend200502

/-! ### szse-bin/src/main/java/com/finproto/szse/bin/messages/Extend200515.java:8-67 -/
namespace Szse.Extend200515
/-- Fields, Extend200515.java:9-10. -/
def fields : List (String × FTy) := [("confirmId", .str), ("cashMargin", .str)]
/-- Accessors (property, getter field, setter field), Extend200515.java:12-28. -/
def acc : List (String × Nat × Nat) := [("ConfirmId", 0, 0), ("CashMargin", 1, 1)]
/-- `encode`, Extend200515.java:28-32. -/
def enc : List EncStmt := [
  .fixed 0 8 0x20 false,  -- 30: confirmId
  .fixed 1 1 0x20 false  -- 31: cashMargin
]
/-- `decode`, Extend200515.java:34-38. -/
def dec : List DecStmt := [
  .fixed 0 8 0x20 false,  -- 36: confirmId
  .fixed 1 1 0x20 false  -- 37: cashMargin
]
/-- `hashCode`, Extend200515.java:40. -/
def hash : HashBody := .fields [0, 1]
/-- `equals`, Extend200515.java:45. -/
def eqs : List (Nat × Nat) := [(0, 0), (1, 1)]
/-- `toString`, Extend200515.java:58. -/
def str : List StrPart := [.lit "Extend200515 [", .lit "confirmId=", .field 0, .lit ", cashMargin=", .field 1, .lit "]"]
/-- szse-bin/src/main/java/com/finproto/szse/bin/messages/Extend200515.java:8-67 -/
def decl : ClassDecl := ⟨"Extend200515", fields, acc, enc, dec, hash, eqs, str⟩
end Szse.Extend200515

/-! ### szse-bin/src/main/java/com/finproto/szse/bin/messages/Extend200602.java:8-50 -/
namespace Szse.Extend200602
/-- Fields, Extend200602.java:9-9. -/
def fields : List (String × FTy) := [("cashMargin", .str)]
/-- Accessors (property, getter field, setter field), Extend200602.java:11-19. -/
def acc : List (String × Nat × Nat) := [("CashMargin", 0, 0)]
/-- `encode`, Extend200602.java:19-22. -/
def enc : List EncStmt := [
  .fixed 0 1 0x20 false  -- 21: cashMargin
]
/-- `decode`, Extend200602.java:24-27. -/
def dec : List DecStmt := [
  .fixed 0 1 0x20 false  -- 26: cashMargin
]
/-- `hashCode`, Extend200602.java:29. -/
def hash : HashBody := .fields [0]
/-- `equals`, Extend200602.java:34. -/
def eqs : List (Nat × Nat) := [(0, 0)]
/-- `toString`, Extend200602.java:46. -/
def str : List StrPart := [.lit "Extend200602 [", .lit "cashMargin=", .field 0, .lit "]"]
/-- szse-bin/src/main/java/com/finproto/szse/bin/messages/Extend200602.java:8-50 -/
def decl : ClassDecl := ⟨"Extend200602", fields, acc, enc, dec, hash, eqs, str⟩
end Szse.Extend200602

/-! ### szse-bin/src/main/java/com/finproto/szse/bin/messages/Extend200615.java:8-50 -/
namespace Szse.Extend200615
/-- Fields, Extend200615.java:9-9. -/
def fields : List (String × FTy) := [("cashMargin", .str)]
/-- Accessors (property, getter field, setter field), Extend200615.java:11-19. -/
def acc : List (String × Nat × Nat) := [("CashMargin", 0, 0)]
/-- `encode`, Extend200615.java:19-22. -/
def enc : List EncStmt := [
  .fixed 0 1 0x20 false  -- 21: cashMargin
]
/-- `decode`, Extend200615.java:24-27. -/
def dec : List DecStmt := [
  .fixed 0 1 0x20 false  -- 26: cashMargin
]
/-- `hashCode`, Extend200615.java:29. -/
def hash : HashBody := .fields [0]
/-- `equals`, Extend200615.java:34. -/
def eqs : List (Nat × Nat) := [(0, 0)]
/-- `toString`, Extend200615.java:46. -/
def str : List StrPart := [.lit "Extend200615 [", .lit "cashMargin=", .field 0, .lit "]"]
/-- szse-bin/src/main/java/com/finproto/szse/bin/messages/Extend200615.java:8-50 -/
def decl : ClassDecl := ⟨"Extend200615", fields, acc, enc, dec, hash, eqs, str⟩
end Szse.Extend200615

/-! ### szse-bin/src/main/java/com/finproto/szse/bin/messages/Extend200702.java:8-81 -/
namespace Szse.Extend200702
/-- Fields, Extend200702.java:9-11. -/
def fields : List (String × FTy) := [("expirationDays", .prim .i16), ("expirationType", .prim .i8), ("shareProperty", .str)]
/-- Accessors (property, getter field, setter field), Extend200702.java:13-37. -/
def acc : List (String × Nat × Nat) := [("ExpirationDays", 0, 0), ("ExpirationType", 1, 1), ("ShareProperty", 2, 2)]
/-- `encode`, Extend200702.java:37-42. -/
def enc : List EncStmt := [
  .num 0 .i16 .be,  -- 39: expirationDays
  .num 1 .i8 .be,  -- 40: expirationType
  .fixed 2 2 0x20 false  -- 41: shareProperty
]
/-- `decode`, Extend200702.java:44-49. -/
def dec : List DecStmt := [
  .num 0 .i16 .be,  -- 46: expirationDays
  .num 1 .i8 .be,  -- 47: expirationType
  .fixed 2 2 0x20 false  -- 48: shareProperty
]
/-- `hashCode`, Extend200702.java:51. -/
def hash : HashBody := .fields [0, 1, 2]
/-- `equals`, Extend200702.java:56. -/
def eqs : List (Nat × Nat) := [(0, 0), (1, 1), (2, 2)]
/-- `toString`, Extend200702.java:70. -/
def str : List StrPart := [.lit "Extend200702 [", .lit "expirationDays=", .field 0, .lit ", expirationType=", .field 1, .lit ", shareProperty=", .field 2, .lit "]"]
/-- szse-bin/src/main/java/com/finproto/szse/bin/messages/Extend200702.java:8-81 -/
def decl : ClassDecl := ⟨"Extend200702", fields, acc, enc, dec, hash, eqs, str⟩
end Szse.Extend200702

/-! ### szse-bin/src/main/java/com/finproto/szse/bin/messages/Extend200715.java:8-95 -/
namespace Szse.Extend200715
/-- Fields, Extend200715.java:9-12. -/
def fields : List (String × FTy) := [("expirationDays", .prim .i16), ("expirationType", .prim .i8), ("maturityDate", .prim .i32), ("shareProperty", .str)]
/-- Accessors (property, getter field, setter field), Extend200715.java:14-46. -/
def acc : List (String × Nat × Nat) := [("ExpirationDays", 0, 0), ("ExpirationType", 1, 1), ("MaturityDate", 2, 2), ("ShareProperty", 3, 3)]
/-- `encode`, Extend200715.java:46-52. -/
def enc : List EncStmt := [
  .num 0 .i16 .be,  -- 48: expirationDays
  .num 1 .i8 .be,  -- 49: expirationType
  .num 2 .i32 .be,  -- 50: maturityDate
  .fixed 3 2 0x20 false  -- 51: shareProperty
]
/-- `decode`, Extend200715.java:54-60. -/
def dec : List DecStmt := [
  .num 0 .i16 .be,  -- 56: expirationDays
  .num 1 .i8 .be,  -- 57: expirationType
  .num 2 .i32 .be,  -- 58: maturityDate
  .fixed 3 2 0x20 false  -- 59: shareProperty
]
/-- `hashCode`, Extend200715.java:62. -/
def hash : HashBody := .fields [0, 1, 2, 3]
/-- `equals`, Extend200715.java:67. -/
def eqs : List (Nat × Nat) := [(0, 0), (1, 1), (2, 2), (3, 3)]
/-- `toString`, Extend200715.java:82. -/
def str : List StrPart := [.lit "Extend200715 [", .lit "expirationDays=", .field 0, .lit ", expirationType=", .field 1, .lit ", maturityDate=", .field 2, .lit ", shareProperty=", .field 3, .lit "]"]
/-- szse-bin/src/main/java/com/finproto/szse/bin/messages/Extend200715.java:8-95 -/
def decl : ClassDecl := ⟨"Extend200715", fields, acc, enc, dec, hash, eqs, str⟩
end Szse.Extend200715

/-! ### szse-bin/src/main/java/com/finproto/szse/bin/messages/Extend201202.java:8-129 -/
namespace Szse.Extend201202
/-- Fields, Extend201202.java:9-14. -/
def fields : List (String × FTy) := [("insufficientSecurityId", .str), ("noSecurity", .prim .i32), ("underlyingSecurityId", .str), ("underlyingSecurityIdsource", .str), ("deliveryQty", .prim .i64), ("substCash", .prim .i64)]
/-- Accessors (property, getter field, setter field), Extend201202.java:16-64. -/
def acc : List (String × Nat × Nat) := [("InsufficientSecurityId", 0, 0), ("NoSecurity", 1, 1), ("UnderlyingSecurityId", 2, 2), ("UnderlyingSecurityIdsource", 3, 3), ("DeliveryQty", 4, 4), ("SubstCash", 5, 5)]
/-- `encode`, Extend201202.java:64-72. -/
def enc : List EncStmt := [
  .fixed 0 8 0x20 false,  -- 66: insufficientSecurityId
  .num 1 .i32 .be,  -- 67: noSecurity
  .fixed 2 8 0x20 false,  -- 68: underlyingSecurityId
  .fixed 3 4 0x20 false,  -- 69: underlyingSecurityIdsource
  .num 4 .i64 .be,  -- 70: deliveryQty
  .num 5 .i64 .be  -- 71: substCash
]
/-- `decode`, Extend201202.java:74-82. -/
def dec : List DecStmt := [
  .fixed 0 8 0x20 false,  -- 76: insufficientSecurityId
  .num 1 .i32 .be,  -- 77: noSecurity
  .fixed 2 8 0x20 false,  -- 78: underlyingSecurityId
  .fixed 3 4 0x20 false,  -- 79: underlyingSecurityIdsource
  .num 4 .i64 .be,  -- 80: deliveryQty
  .num 5 .i64 .be  -- 81: substCash
]
/-- `hashCode`, Extend201202.java:84. -/
def hash : HashBody := .fields [0, 1, 2, 3, 4, 5]
/-- `equals`, Extend201202.java:95. -/
def eqs : List (Nat × Nat) := [(0, 0), (1, 1), (2, 2), (3, 3), (4, 4), (5, 5)]
/-- `toString`, Extend201202.java:112. -/
def str : List StrPart := [.lit "Extend201202 [", .lit "insufficientSecurityId=", .field 0, .lit ", noSecurity=", .field 1, .lit ", underlyingSecurityId=", .field 2, .lit ", underlyingSecurityIdsource=", .field 3, .lit ", deliveryQty=", .field 4, .lit ", substCash=", .field 5, .lit "]"]
/-- szse-bin/src/main/java/com/finproto/szse/bin/messages/Extend201202.java:8-129 -/
def decl : ClassDecl := ⟨"Extend201202", fields, acc, enc, dec, hash, eqs, str⟩
end Szse.Extend201202

/-! ### szse-bin/src/main/java/com/finproto/szse/bin/messages/Extend201502.java:8-50 -/
namespace Szse.Extend201502
/-- Fields, Extend201502.java:9-9. -/
def fields : List (String × FTy) := [("shareProperty", .str)]
/-- Accessors (property, getter field, setter field), Extend201502.java:11-19. -/
def acc : List (String × Nat × Nat) := [("ShareProperty", 0, 0)]
/-- `encode`, Extend201502.java:19-22. -/
def enc : List EncStmt := [
  .fixed 0 2 0x20 false  -- 21: shareProperty
]
/-- `decode`, Extend201502.java:24-27. -/
def dec : List DecStmt := [
  .fixed 0 2 0x20 false  -- 26: shareProperty
]
/-- `hashCode`, Extend201502.java:29. -/
def hash : HashBody := .fields [0]
/-- `equals`, Extend201502.java:34. -/
def eqs : List (Nat × Nat) := [(0, 0)]
/-- `toString`, Extend201502.java:46. -/
def str : List StrPart := [.lit "Extend201502 [", .lit "shareProperty=", .field 0, .lit "]"]
/-- szse-bin/src/main/java/com/finproto/szse/bin/messages/Extend201502.java:8-50 -/
def decl : ClassDecl := ⟨"Extend201502", fields, acc, enc, dec, hash, eqs, str⟩
end Szse.Extend201502

/-! ### szse-bin/src/main/java/com/finproto/szse/bin/messages/Extend201602.java:8-50 -/
namespace Szse.Extend201602
/-- Fields, Extend201602.java:9-9. -/
def fields : List (String × FTy) := [("contractAccountCode", .str)]
/-- Accessors (property, getter field, setter field), Extend201602.java:11-19. -/
def acc : List (String × Nat × Nat) := [("ContractAccountCode", 0, 0)]
/-- `encode`, Extend201602.java:19-22. -/
def enc : List EncStmt := [
  .fixed 0 6 0x20 false  -- 21: contractAccountCode
]
/-- `decode`, Extend201602.java:24-27. -/
def dec : List DecStmt := [
  .fixed 0 6 0x20 false  -- 26: contractAccountCode
]
/-- `hashCode`, Extend201602.java:29. -/
def hash : HashBody := .fields [0]
/-- `equals`, Extend201602.java:34. -/
def eqs : List (Nat × Nat) := [(0, 0)]
/-- `toString`, Extend201602.java:46. -/
def str : List StrPart := [.lit "Extend201602 [", .lit "contractAccountCode=", .field 0, .lit "]"]
/-- szse-bin/src/main/java/com/finproto/szse/bin/messages/Extend201602.java:8-50 -/
def decl : ClassDecl := ⟨"Extend201602", fields, acc, enc, dec, hash, eqs, str⟩
end Szse.Extend201602

/-! ### szse-bin/src/main/java/com/finproto/szse/bin/messages/Extend201702.java:8-50 -/
namespace Szse.Extend201702
/-- Fields, Extend201702.java:9-9. -/
def fields : List (String × FTy) := [("cashOrderQty", .prim .i64)]
/-- Accessors (property, getter field, setter field), Extend201702.java:11-19. -/
def acc : List (String × Nat × Nat) := [("CashOrderQty", 0, 0)]
/-- `encode`, Extend201702.java:19-22. -/
def enc : List EncStmt := [
  .num 0 .i64 .be  -- 21: cashOrderQty
]
/-- `decode`, Extend201702.java:24-27. -/
def dec : List DecStmt := [
  .num 0 .i64 .be  -- 26: cashOrderQty
]
/-- `hashCode`, Extend201702.java:29. -/
def hash : HashBody := .fields [0]
/-- `equals`, Extend201702.java:34. -/
def eqs : List (Nat × Nat) := [(0, 0)]
/-- `toString`, Extend201702.java:46. -/
def str : List StrPart := [.lit "Extend201702 [", .lit "cashOrderQty=", .field 0, .lit "]"]
/-- szse-bin/src/main/java/com/finproto/szse/bin/messages/Extend201702.java:8-50 -/
def decl : ClassDecl := ⟨"Extend201702", fields, acc, enc, dec, hash, eqs, str⟩
end Szse.Extend201702

/-! ### szse-bin/src/main/java/com/finproto/szse/bin/messages/Extend201802.java:8-50 -/
namespace Szse.Extend201802
/-- Fields, Extend201802.java:9-9. -/
def fields : List (String × FTy) := [("tenderer", .str)]
/-- Accessors (property, getter field, setter field), Extend201802.java:11-19. -/
def acc : List (String × Nat × Nat) := [("Tenderer", 0, 0)]
/-- `encode`, Extend201802.java:19-22. -/
def enc : List EncStmt := [
  .fixed 0 6 0x20 false  -- 21: tenderer
]
/-- `decode`, Extend201802.java:24-27. -/
def dec : List DecStmt := [
  .fixed 0 6 0x20 false  -- 26: tenderer
]
/-- `hashCode`, Extend201802.java:29. -/
def hash : HashBody := .fields [0]
/-- `equals`, Extend201802.java:34. -/
def eqs : List (Nat × Nat) := [(0, 0)]
/-- `toString`, Extend201802.java:46. -/
def str : List StrPart := [.lit "Extend201802 [", .lit "tenderer=", .field 0, .lit "]"]
/-- szse-bin/src/main/java/com/finproto/szse/bin/messages/Extend201802.java:8-50 -/
def decl : ClassDecl := ⟨"Extend201802", fields, acc, enc, dec, hash, eqs, str⟩
end Szse.Extend201802

/-! ### szse-bin/src/main/java/com/finproto/szse/bin/messages/Extend202702.java:8-67 -/
namespace Szse.Extend202702
/-- Fields, Extend202702.java:9-10. -/
def fields : List (String × FTy) := [("disposalPbu", .str), ("disposalAccountId", .str)]
/-- Accessors (property, getter field, setter field), Extend202702.java:12-28. -/
def acc : List (String × Nat × Nat) := [("DisposalPbu", 0, 0), ("DisposalAccountId", 1, 1)]
/-- `encode`, Extend202702.java:28-32. -/
def enc : List EncStmt := [
  .fixed 0 6 0x20 false,  -- 30: disposalPbu
  .fixed 1 12 0x20 false  -- 31: disposalAccountId
]
/-- `decode`, Extend202702.java:34-38. -/
def dec : List DecStmt := [
  .fixed 0 6 0x20 false,  -- 36: disposalPbu
  .fixed 1 12 0x20 false  -- 37: disposalAccountId
]
/-- `hashCode`, Extend202702.java:40. -/
def hash : HashBody := .fields [0, 1]
/-- `equals`, Extend202702.java:45. -/
def eqs : List (Nat × Nat) := [(0, 0), (1, 1)]
/-- `toString`, Extend202702.java:58. -/
def str : List StrPart := [.lit "Extend202702 [", .lit "disposalPbu=", .field 0, .lit ", disposalAccountId=", .field 1, .lit "]"]
/-- szse-bin/src/main/java/com/finproto/szse/bin/messages/Extend202702.java:8-67 -/
def decl : ClassDecl := ⟨"Extend202702", fields, acc, enc, dec, hash, eqs, str⟩
end Szse.Extend202702

/-! ### szse-bin/src/main/java/com/finproto/szse/bin/messages/Extend202802.java:8-67 -/
namespace Szse.Extend202802
/-- Fields, Extend202802.java:9-10. -/
def fields : List (String × FTy) := [("lenderPbu", .str), ("lenderAccountId", .str)]
/-- Accessors (property, getter field, setter field), Extend202802.java:12-28. -/
def acc : List (String × Nat × Nat) := [("LenderPbu", 0, 0), ("LenderAccountId", 1, 1)]
/-- `encode`, Extend202802.java:28-32. -/
def enc : List EncStmt := [
  .fixed 0 6 0x20 false,  -- 30: lenderPbu
  .fixed 1 12 0x20 false  -- 31: lenderAccountId
]
/-- `decode`, Extend202802.java:34-38. -/
def dec : List DecStmt := [
  .fixed 0 6 0x20 false,  -- 36: lenderPbu
  .fixed 1 12 0x20 false  -- 37: lenderAccountId
]
/-- `hashCode`, Extend202802.java:40. -/
def hash : HashBody := .fields [0, 1]
/-- `equals`, Extend202802.java:45. -/
def eqs : List (Nat × Nat) := [(0, 0), (1, 1)]
/-- `toString`, Extend202802.java:58. -/
def str : List StrPart := [.lit "Extend202802 [", .lit "lenderPbu=", .field 0, .lit ", lenderAccountId=", .field 1, .lit "]"]
/-- szse-bin/src/main/java/com/finproto/szse/bin/messages/Extend202802.java:8-67 -/
def decl : ClassDecl := ⟨"Extend202802", fields, acc, enc, dec, hash, eqs, str⟩
end Szse.Extend202802

/-! ### szse-bin/src/main/java/com/finproto/szse/bin/messages/Extend202902.java:8-67 -/
namespace Szse.Extend202902
/-- Fields, Extend202902.java:9-10. -/
def fields : List (String × FTy) := [("deductionPbu", .str), ("deductionAccountId", .str)]
/-- Accessors (property, getter field, setter field), Extend202902.java:12-28. -/
def acc : List (String × Nat × Nat) := [("DeductionPbu", 0, 0), ("DeductionAccountId", 1, 1)]
/-- `encode`, Extend202902.java:28-32. -/
def enc : List EncStmt := [
  .fixed 0 6 0x20 false,  -- 30: deductionPbu
  .fixed 1 12 0x20 false  -- 31: deductionAccountId
]
/-- `decode`, Extend202902.java:34-38. -/
def dec : List DecStmt := [
  .fixed 0 6 0x20 false,  -- 36: deductionPbu
  .fixed 1 12 0x20 false  -- 37: deductionAccountId
]
/-- `hashCode`, Extend202902.java:40. -/
def hash : HashBody := .fields [0, 1]
/-- `equals`, Extend202902.java:45. -/
def eqs : List (Nat × Nat) := [(0, 0), (1, 1)]
/-- `toString`, Extend202902.java:58. -/
def str : List StrPart := [.lit "Extend202902 [", .lit "deductionPbu=", .field 0, .lit ", deductionAccountId=", .field 1, .lit "]"]
/-- szse-bin/src/main/java/com/finproto/szse/bin/messages/Extend202902.java:8-67 -/
def decl : ClassDecl := ⟨"Extend202902", fields, acc, enc, dec, hash, eqs, str⟩
end Szse.Extend202902

/-! ### szse-bin/src/main/java/com/finproto/szse/bin/messages/Extend203102.java:8-114 -/
namespace Szse.Extend203102
/-- Fields, Extend203102.java:9-13. -/
def fields : List (String × FTy) := [("insufficientSecurityId", .str), ("noSecurity", .prim .i32), ("underlyingSecurityId", .str), ("underlyingSecurityIdsource", .str), ("deliveryQty", .prim .i64)]
/-- Accessors (property, getter field, setter field), Extend203102.java:15-55. -/
def acc : List (String × Nat × Nat) := [("InsufficientSecurityId", 0, 0), ("NoSecurity", 1, 1), ("UnderlyingSecurityId", 2, 2), ("UnderlyingSecurityIdsource", 3, 3), ("DeliveryQty", 4, 4)]
/-- `encode`, Extend203102.java:55-62. -/
def enc : List EncStmt := [
  .fixed 0 8 0x20 false,  -- 57: insufficientSecurityId
  .num 1 .i32 .be,  -- 58: noSecurity
  .fixed 2 8 0x20 false,  -- 59: underlyingSecurityId
  .fixed 3 4 0x20 false,  -- 60: underlyingSecurityIdsource
  .num 4 .i64 .be  -- 61: deliveryQty
]
/-- `decode`, Extend203102.java:64-71. -/
def dec : List DecStmt := [
  .fixed 0 8 0x20 false,  -- 66: insufficientSecurityId
  .num 1 .i32 .be,  -- 67: noSecurity
  .fixed 2 8 0x20 false,  -- 68: underlyingSecurityId
  .fixed 3 4 0x20 false,  -- 69: underlyingSecurityIdsource
  .num 4 .i64 .be  -- 70: deliveryQty
]
/-- `hashCode`, Extend203102.java:73. -/
def hash : HashBody := .fields [0, 1, 2, 3, 4]
/-- `equals`, Extend203102.java:83. -/
def eqs : List (Nat × Nat) := [(0, 0), (1, 1), (2, 2), (3, 3), (4, 4)]
/-- `toString`, Extend203102.java:99. -/
def str : List StrPart := [.lit "Extend203102 [", .lit "insufficientSecurityId=", .field 0, .lit ", noSecurity=", .field 1, .lit ", underlyingSecurityId=", .field 2, .lit ", underlyingSecurityIdsource=", .field 3, .lit ", deliveryQty=", .field 4, .lit "]"]
/-- szse-bin/src/main/java/com/finproto/szse/bin/messages/Extend203102.java:8-114 -/
def decl : ClassDecl := ⟨"Extend203102", fields, acc, enc, dec, hash, eqs, str⟩
end Szse.Extend203102

/-! ### szse-bin/src/main/java/com/finproto/szse/bin/messages/Extend203502.java:8-50 -/
namespace Szse.Extend203502
/-- Fields, Extend203502.java:9-9. -/
def fields : List (String × FTy) := [("contractAccountCode", .str)]
/-- Accessors (property, getter field, setter field), Extend203502.java:11-19. -/
def acc : List (String × Nat × Nat) := [("ContractAccountCode", 0, 0)]
/-- `encode`, Extend203502.java:19-22. -/
def enc : List EncStmt := [
  .fixed 0 6 0x20 false  -- 21: contractAccountCode
]
/-- `decode`, Extend203502.java:24-27. -/
def dec : List DecStmt := [
  .fixed 0 6 0x20 false  -- 26: contractAccountCode
]
/-- `hashCode`, Extend203502.java:29. -/
def hash : HashBody := .fields [0]
/-- `equals`, Extend203502.java:34. -/
def eqs : List (Nat × Nat) := [(0, 0)]
/-- `toString`, Extend203502.java:46. -/
def str : List StrPart := [.lit "Extend203502 [", .lit "contractAccountCode=", .field 0, .lit "]"]
/-- szse-bin/src/main/java/com/finproto/szse/bin/messages/Extend203502.java:8-50 -/
def decl : ClassDecl := ⟨"Extend203502", fields, acc, enc, dec, hash, eqs, str⟩
end Szse.Extend203502

/-! ### szse-bin/src/main/java/com/finproto/szse/bin/messages/Extend203702.java:8-50 -/
namespace Szse.Extend203702
/-- Fields, Extend203702.java:9-9. -/
def fields : List (String × FTy) := [("cashMargin", .str)]
/-- Accessors (property, getter field, setter field), Extend203702.java:11-19. -/
def acc : List (String × Nat × Nat) := [("CashMargin", 0, 0)]
/-- `encode`, Extend203702.java:19-22. -/
def enc : List EncStmt := [
  .fixed 0 1 0x20 false  -- 21: cashMargin
]
/-- `decode`, Extend203702.java:24-27. -/
def dec : List DecStmt := [
  .fixed 0 1 0x20 false  -- 26: cashMargin
]
/-- `hashCode`, Extend203702.java:29. -/
def hash : HashBody := .fields [0]
/-- `equals`, Extend203702.java:34. -/
def eqs : List (Nat × Nat) := [(0, 0)]
/-- `toString`, Extend203702.java:46. -/
def str : List StrPart := [.lit "Extend203702 [", .lit "cashMargin=", .field 0, .lit "]"]
/-- szse-bin/src/main/java/com/finproto/szse/bin/messages/Extend203702.java:8-50 -/
def decl : ClassDecl := ⟨"Extend203702", fields, acc, enc, dec, hash, eqs, str⟩
end Szse.Extend203702

/-! ### szse-bin/src/main/java/com/finproto/szse/bin/messages/Extend203715.java:8-50 -/
namespace Szse.Extend203715
/-- Fields, Extend203715.java:9-9. -/
def fields : List (String × FTy) := [("cashMargin", .str)]
/-- Accessors (property, getter field, setter field), Extend203715.java:11-19. -/
def acc : List (String × Nat × Nat) := [("CashMargin", 0, 0)]
/-- `encode`, Extend203715.java:19-22. -/
def enc : List EncStmt := [
  .fixed 0 1 0x20 false  -- 21: cashMargin
]
/-- `decode`, Extend203715.java:24-27. -/
def dec : List DecStmt := [
  .fixed 0 1 0x20 false  -- 26: cashMargin
]
/-- `hashCode`, Extend203715.java:29. -/
def hash : HashBody := .fields [0]
/-- `equals`, Extend203715.java:34. -/
def eqs : List (Nat × Nat) := [(0, 0)]
/-- `toString`, Extend203715.java:46. -/
def str : List StrPart := [.lit "Extend203715 [", .lit "cashMargin=", .field 0, .lit "]"]
/-- szse-bin/src/main/java/com/finproto/szse/bin/messages/Extend203715.java:8-50 -/
def decl : ClassDecl := ⟨"Extend203715", fields, acc, enc, dec, hash, eqs, str⟩
end Szse.Extend203715

/-! ### szse-bin/src/main/java/com/finproto/szse/bin/messages/Extend204102.java:8-109 -/
namespace Szse.Extend204102
/-- Fields, Extend204102.java:9-13. -/
def fields : List (String × FTy) := [("stopPx", .prim .i64), ("minQty", .prim .i64), ("maxPriceLevels", .prim .i16), ("timeInForce", .str), ("cashMargin", .str)]
/-- Accessors (property, getter field, setter field), Extend204102.java:15-55. -/
def acc : List (String × Nat × Nat) := [("StopPx", 0, 0), ("MinQty", 1, 1), ("MaxPriceLevels", 2, 2), ("TimeInForce", 3, 3), ("CashMargin", 4, 4)]
/-- `encode`, Extend204102.java:55-62. -/
def enc : List EncStmt := [
  .num 0 .i64 .be,  -- 57: stopPx
  .num 1 .i64 .be,  -- 58: minQty
  .num 2 .i16 .be,  -- 59: maxPriceLevels
  .fixed 3 1 0x20 false,  -- 60: timeInForce
  .fixed 4 1 0x20 false  -- 61: cashMargin
]
/-- `decode`, Extend204102.java:64-71. -/
def dec : List DecStmt := [
  .num 0 .i64 .be,  -- 66: stopPx
  .num 1 .i64 .be,  -- 67: minQty
  .num 2 .i16 .be,  -- 68: maxPriceLevels
  .fixed 3 1 0x20 false,  -- 69: timeInForce
  .fixed 4 1 0x20 false  -- 70: cashMargin
]
/-- `hashCode`, Extend204102.java:73. -/
def hash : HashBody := .fields [0, 1, 2, 3, 4]
/-- `equals`, Extend204102.java:78. -/
def eqs : List (Nat × Nat) := [(0, 0), (1, 1), (2, 2), (3, 3), (4, 4)]
/-- `toString`, Extend204102.java:94. -/
def str : List StrPart := [.lit "Extend204102 [", .lit "stopPx=", .field 0, .lit ", minQty=", .field 1, .lit ", maxPriceLevels=", .field 2, .lit ", timeInForce=", .field 3, .lit ", cashMargin=", .field 4, .lit "]"]
/-- szse-bin/src/main/java/com/finproto/szse/bin/messages/Extend204102.java:8-109 -/
def decl : ClassDecl := ⟨"Extend204102", fields, acc, enc, dec, hash, eqs, str⟩
end Szse.Extend204102

/-! ### szse-bin/src/main/java/com/finproto/szse/bin/messages/Extend204115.java:8-159 -/
namespace Szse.Extend204115
/-- Fields, Extend204115.java:9-16. -/
def fields : List (String × FTy) := [("cashMargin", .str), ("settlType", .prim .i16), ("settlPeriod", .prim .i8), ("counterpartyMemberId", .str), ("counterpartyInvestorType", .str), ("counterpartyInvestorId", .str), ("counterpartyInvestorName", .str), ("counterpartyTraderCode", .str)]
/-- Accessors (property, getter field, setter field), Extend204115.java:18-82. -/
def acc : List (String × Nat × Nat) := [("CashMargin", 0, 0), ("SettlType", 1, 1), ("SettlPeriod", 2, 2), ("CounterpartyMemberId", 3, 3), ("CounterpartyInvestorType", 4, 4), ("CounterpartyInvestorId", 5, 5), ("CounterpartyInvestorName", 6, 6), ("CounterpartyTraderCode", 7, 7)]
/-- `encode`, Extend204115.java:82-92. -/
def enc : List EncStmt := [
  .fixed 0 1 0x20 false,  -- 84: cashMargin
  .num 1 .i16 .be,  -- 85: settlType
  .num 2 .i8 .be,  -- 86: settlPeriod
  .fixed 3 6 0x20 false,  -- 87: counterpartyMemberId
  .fixed 4 2 0x20 false,  -- 88: counterpartyInvestorType
  .fixed 5 10 0x20 false,  -- 89: counterpartyInvestorId
  .fixed 6 120 0x20 false,  -- 90: counterpartyInvestorName
  .fixed 7 8 0x20 false  -- 91: counterpartyTraderCode
]
/-- `decode`, Extend204115.java:94-104. -/
def dec : List DecStmt := [
  .fixed 0 1 0x20 false,  -- 96: cashMargin
  .num 1 .i16 .be,  -- 97: settlType
  .num 2 .i8 .be,  -- 98: settlPeriod
  .fixed 3 6 0x20 false,  -- 99: counterpartyMemberId
  .fixed 4 2 0x20 false,  -- 100: counterpartyInvestorType
  .fixed 5 10 0x20 false,  -- 101: counterpartyInvestorId
  .fixed 6 120 0x20 false,  -- 102: counterpartyInvestorName
  .fixed 7 8 0x20 false  -- 103: counterpartyTraderCode
]
/-- `hashCode`, Extend204115.java:106. -/
def hash : HashBody := .fields [0, 1, 2, 3, 4, 5, 6, 7]
/-- `equals`, Extend204115.java:119. -/
def eqs : List (Nat × Nat) := [(0, 0), (1, 1), (2, 2), (3, 3), (4, 4), (5, 5), (6, 6), (7, 7)]
/-- `toString`, Extend204115.java:138. -/
def str : List StrPart := [.lit "Extend204115 [", .lit "cashMargin=", .field 0, .lit ", settlType=", .field 1, .lit ", settlPeriod=", .field 2, .lit ", counterpartyMemberId=", .field 3, .lit ", counterpartyInvestorType=", .field 4, .lit ", counterpartyInvestorId=", .field 5, .lit ", counterpartyInvestorName=", .field 6, .lit ", counterpartyTraderCode=", .field 7, .lit "]"]
/-- szse-bin/src/main/java/com/finproto/szse/bin/messages/Extend204115.java:8-159 -/
def decl : ClassDecl := ⟨"Extend204115", fields, acc, enc, dec, hash, eqs, str⟩
end Szse.Extend204115

/-! ### szse-bin/src/main/java/com/finproto/szse/bin/messages/Extend204129.java:8-294 -/
namespace Szse.Extend204129
/-- Fields, Extend204129.java:9-25. -/
def fields : List (String × FTy) := [("memberId", .str), ("investorType", .str), ("investorId", .str), ("investorName", .str), ("traderCode", .str), ("secondaryOrderId", .str), ("bidTransType", .prim .i16), ("bidExecInstType", .prim .i16), ("lowLimitPrice", .prim .i64), ("highLimitPrice", .prim .i64), ("minQty", .prim .i64), ("tradeDate", .prim .i32), ("settlType", .prim .i16), ("settlPeriod", .prim .i8), ("preTradeAnonymity", .prim .i8), ("cashMargin", .str), ("memo", .str)]
/-- Accessors (property, getter field, setter field), Extend204129.java:27-163. -/
def acc : List (String × Nat × Nat) := [("MemberId", 0, 0), ("InvestorType", 1, 1), ("InvestorId", 2, 2), ("InvestorName", 3, 3), ("TraderCode", 4, 4), ("SecondaryOrderId", 5, 5), ("BidTransType", 6, 6), ("BidExecInstType", 7, 7), ("LowLimitPrice", 8, 8), ("HighLimitPrice", 9, 9), ("MinQty", 10, 10), ("TradeDate", 11, 11), ("SettlType", 12, 12), ("SettlPeriod", 13, 13), ("PreTradeAnonymity", 14, 14), ("CashMargin", 15, 15), ("Memo", 16, 16)]
/-- `encode`, Extend204129.java:163-182. -/
def enc : List EncStmt := [
  .fixed 0 6 0x20 false,  -- 165: memberId
  .fixed 1 2 0x20 false,  -- 166: investorType
  .fixed 2 10 0x20 false,  -- 167: investorId
  .fixed 3 120 0x20 false,  -- 168: investorName
  .fixed 4 8 0x20 false,  -- 169: traderCode
  .fixed 5 16 0x20 false,  -- 170: secondaryOrderId
  .num 6 .i16 .be,  -- 171: bidTransType
  .num 7 .i16 .be,  -- 172: bidExecInstType
  .num 8 .i64 .be,  -- 173: lowLimitPrice
  .num 9 .i64 .be,  -- 174: highLimitPrice
  .num 10 .i64 .be,  -- 175: minQty
  .num 11 .i32 .be,  -- 176: tradeDate
  .num 12 .i16 .be,  -- 177: settlType
  .num 13 .i8 .be,  -- 178: settlPeriod
  .num 14 .i8 .be,  -- 179: preTradeAnonymity
  .fixed 15 1 0x20 false,  -- 180: cashMargin
  .fixed 16 160 0x20 false  -- 181: memo
]
/-- `decode`, Extend204129.java:184-203. -/
def dec : List DecStmt := [
  .fixed 0 6 0x20 false,  -- 186: memberId
  .fixed 1 2 0x20 false,  -- 187: investorType
  .fixed 2 10 0x20 false,  -- 188: investorId
  .fixed 3 120 0x20 false,  -- 189: investorName
  .fixed 4 8 0x20 false,  -- 190: traderCode
  .fixed 5 16 0x20 false,  -- 191: secondaryOrderId
  .num 6 .i16 .be,  -- 192: bidTransType
  .num 7 .i16 .be,  -- 193: bidExecInstType
  .num 8 .i64 .be,  -- 194: lowLimitPrice
  .num 9 .i64 .be,  -- 195: highLimitPrice
  .num 10 .i64 .be,  -- 196: minQty
  .num 11 .i32 .be,  -- 197: tradeDate
  .num 12 .i16 .be,  -- 198: settlType
  .num 13 .i8 .be,  -- 199: settlPeriod
  .num 14 .i8 .be,  -- 200: preTradeAnonymity
  .fixed 15 1 0x20 false,  -- 201: cashMargin
  .fixed 16 160 0x20 false  -- 202: memo
]
/-- `hashCode`, Extend204129.java:205. -/
def hash : HashBody := .fields [0, 1, 2, 3, 4, 5, 6, 7, 8, 9, 10, 11, 12, 13, 14, 15, 16]
/-- `equals`, Extend204129.java:227. -/
def eqs : List (Nat × Nat) := [(0, 0), (1, 1), (2, 2), (3, 3), (4, 4), (5, 5), (6, 6), (7, 7), (8, 8), (9, 9), (10, 10), (11, 11), (12, 12), (13, 13), (14, 14), (15, 15), (16, 16)]
/-- `toString`, Extend204129.java:255. -/
def str : List StrPart := [.lit "Extend204129 [", .lit "memberId=", .field 0, .lit ", investorType=", .field 1, .lit ", investorId=", .field 2, .lit ", investorName=", .field 3, .lit ", traderCode=", .field 4, .lit ", secondaryOrderId=", .field 5, .lit ", bidTransType=", .field 6, .lit ", bidExecInstType=", .field 7, .lit ", lowLimitPrice=", .field 8, .lit ", highLimitPrice=", .field 9, .lit ", minQty=", .field 10, .lit ", tradeDate=", .field 11, .lit ", settlType=", .field 12, .lit ", settlPeriod=", .field 13, .lit ", preTradeAnonymity=", .field 14, .lit ", cashMargin=", .field 15, .lit ", memo=", .field 16, .lit "]"]
/-- szse-bin/src/main/java/com/finproto/szse/bin/messages/Extend204129.java:8-294 -/
def decl : ClassDecl := ⟨"Extend204129", fields, acc, enc, dec, hash, eqs, str⟩
end Szse.Extend204129

/-! ### szse-bin/src/main/java/com/finproto/szse/bin/messages/Extend204130.java:8-294 -/
namespace Szse.Extend204130
/-- Fields, Extend204130.java:9-25. -/
def fields : List (String × FTy) := [("memberId", .str), ("investorType", .str), ("investorId", .str), ("investorName", .str), ("traderCode", .str), ("counterpartyMemberId", .str), ("counterpartyInvestorType", .str), ("counterpartyInvestorId", .str), ("counterpartyInvestorName", .str), ("counterpartyTraderCode", .str), ("secondaryOrderId", .str), ("bidTransType", .prim .i16), ("bidExecInstType", .prim .i16), ("settlType", .prim .i16), ("settlPeriod", .prim .i8), ("cashMargin", .str), ("memo", .str)]
/-- Accessors (property, getter field, setter field), Extend204130.java:27-163. -/
def acc : List (String × Nat × Nat) := [("MemberId", 0, 0), ("InvestorType", 1, 1), ("InvestorId", 2, 2), ("InvestorName", 3, 3), ("TraderCode", 4, 4), ("CounterpartyMemberId", 5, 5), ("CounterpartyInvestorType", 6, 6), ("CounterpartyInvestorId", 7, 7), ("CounterpartyInvestorName", 8, 8), ("CounterpartyTraderCode", 9, 9), ("SecondaryOrderId", 10, 10), ("BidTransType", 11, 11), ("BidExecInstType", 12, 12), ("SettlType", 13, 13), ("SettlPeriod", 14, 14), ("CashMargin", 15, 15), ("Memo", 16, 16)]
/-- `encode`, Extend204130.java:163-182. -/
def enc : List EncStmt := [
  .fixed 0 6 0x20 false,  -- 165: memberId
  .fixed 1 2 0x20 false,  -- 166: investorType
  .fixed 2 10 0x20 false,  -- 167: investorId
  .fixed 3 120 0x20 false,  -- 168: investorName
  .fixed 4 8 0x20 false,  -- 169: traderCode
  .fixed 5 6 0x20 false,  -- 170: counterpartyMemberId
  .fixed 6 2 0x20 false,  -- 171: counterpartyInvestorType
  .fixed 7 10 0x20 false,  -- 172: counterpartyInvestorId
  .fixed 8 120 0x20 false,  -- 173: counterpartyInvestorName
  .fixed 9 8 0x20 false,  -- 174: counterpartyTraderCode
  .fixed 10 16 0x20 false,  -- 175: secondaryOrderId
  .num 11 .i16 .be,  -- 176: bidTransType
  .num 12 .i16 .be,  -- 177: bidExecInstType
  .num 13 .i16 .be,  -- 178: settlType
  .num 14 .i8 .be,  -- 179: settlPeriod
  .fixed 15 1 0x20 false,  -- 180: cashMargin
  .fixed 16 160 0x20 false  -- 181: memo
]
/-- `decode`, Extend204130.java:184-203. -/
def dec : List DecStmt := [
  .fixed 0 6 0x20 false,  -- 186: memberId
  .fixed 1 2 0x20 false,  -- 187: investorType
  .fixed 2 10 0x20 false,  -- 188: investorId
  .fixed 3 120 0x20 false,  -- 189: investorName
  .fixed 4 8 0x20 false,  -- 190: traderCode
  .fixed 5 6 0x20 false,  -- 191: counterpartyMemberId
  .fixed 6 2 0x20 false,  -- 192: counterpartyInvestorType
  .fixed 7 10 0x20 false,  -- 193: counterpartyInvestorId
  .fixed 8 120 0x20 false,  -- 194: counterpartyInvestorName
  .fixed 9 8 0x20 false,  -- 195: counterpartyTraderCode
  .fixed 10 16 0x20 false,  -- 196: secondaryOrderId
  .num 11 .i16 .be,  -- 197: bidTransType
  .num 12 .i16 .be,  -- 198: bidExecInstType
  .num 13 .i16 .be,  -- 199: settlType
  .num 14 .i8 .be,  -- 200: settlPeriod
  .fixed 15 1 0x20 false,  -- 201: cashMargin
  .fixed 16 160 0x20 false  -- 202: memo
]
/-- `hashCode`, Extend204130.java:205. -/
def hash : HashBody := .fields [0, 1, 2, 3, 4, 5, 6, 7, 8, 9, 10, 11, 12, 13, 14, 15, 16]
/-- `equals`, Extend204130.java:227. -/
def eqs : List (Nat × Nat) := [(0, 0), (1, 1), (2, 2), (3, 3), (4, 4), (5, 5), (6, 6), (7, 7), (8, 8), (9, 9), (10, 10), (11, 11), (12, 12), (13, 13), (14, 14), (15, 15), (16, 16)]
/-- `toString`, Extend204130.java:255. -/
def str : List StrPart := [.lit "Extend204130 [", .lit "memberId=", .field 0, .lit ", investorType=", .field 1, .lit ", investorId=", .field 2, .lit ", investorName=", .field 3, .lit ", traderCode=", .field 4, .lit ", counterpartyMemberId=", .field 5, .lit ", counterpartyInvestorType=", .field 6, .lit ", counterpartyInvestorId=", .field 7, .lit ", counterpartyInvestorName=", .field 8, .lit ", counterpartyTraderCode=", .field 9, .lit ", secondaryOrderId=", .field 10, .lit ", bidTransType=", .field 11, .lit ", bidExecInstType=", .field 12, .lit ", settlType=", .field 13, .lit ", settlPeriod=", .field 14, .lit ", cashMargin=", .field 15, .lit ", memo=", .field 16, .lit "]"]
/-- szse-bin/src/main/java/com/finproto/szse/bin/messages/Extend204130.java:8-294 -/
def decl : ClassDecl := ⟨"Extend204130", fields, acc, enc, dec, hash, eqs, str⟩
end Szse.Extend204130

/-! ### szse-bin/src/main/java/com/finproto/szse/bin/messages/Extend204702.java:8-50 -/
namespace Szse.Extend204702
/-- Fields, Extend204702.java:9-9. -/
def fields : List (String × FTy) := [("secondaryOrderId", .str)]
/-- Accessors (property, getter field, setter field), Extend204702.java:11-19. -/
def acc : List (String × Nat × Nat) := [("SecondaryOrderId", 0, 0)]
/-- `encode`, Extend204702.java:19-22. -/
def enc : List EncStmt := [
  .fixed 0 16 0x20 false  -- 21: secondaryOrderId
]
/-- `decode`, Extend204702.java:24-27. -/
def dec : List DecStmt := [
  .fixed 0 16 0x20 false  -- 26: secondaryOrderId
]
/-- `hashCode`, Extend204702.java:29. -/
def hash : HashBody := .fields [0]
/-- `equals`, Extend204702.java:34. -/
def eqs : List (Nat × Nat) := [(0, 0)]
/-- `toString`, Extend204702.java:46. -/
def str : List StrPart := [.lit "Extend204702 [", .lit "secondaryOrderId=", .field 0, .lit "]"]
/-- szse-bin/src/main/java/com/finproto/szse/bin/messages/Extend204702.java:8-50 -/
def decl : ClassDecl := ⟨"Extend204702", fields, acc, enc, dec, hash, eqs, str⟩
end Szse.Extend204702

/-! ### szse-bin/src/main/java/com/finproto/szse/bin/messages/Extend204715.java:8-95 -/
namespace Szse.Extend204715
/-- Fields, Extend204715.java:9-12. -/
def fields : List (String × FTy) := [("expirationDays", .prim .i16), ("expirationType", .prim .i8), ("maturityDate", .prim .i32), ("shareProperty", .str)]
/-- Accessors (property, getter field, setter field), Extend204715.java:14-46. -/
def acc : List (String × Nat × Nat) := [("ExpirationDays", 0, 0), ("ExpirationType", 1, 1), ("MaturityDate", 2, 2), ("ShareProperty", 3, 3)]
/-- `encode`, Extend204715.java:46-52. -/
def enc : List EncStmt := [
  .num 0 .i16 .be,  -- 48: expirationDays
  .num 1 .i8 .be,  -- 49: expirationType
  .num 2 .i32 .be,  -- 50: maturityDate
  .fixed 3 2 0x20 false  -- 51: shareProperty
]
/-- `decode`, Extend204715.java:54-60. -/
def dec : List DecStmt := [
  .num 0 .i16 .be,  -- 56: expirationDays
  .num 1 .i8 .be,  -- 57: expirationType
  .num 2 .i32 .be,  -- 58: maturityDate
  .fixed 3 2 0x20 false  -- 59: shareProperty
]
/-- `hashCode`, Extend204715.java:62. -/
def hash : HashBody := .fields [0, 1, 2, 3]
/-- `equals`, Extend204715.java:67. -/
def eqs : List (Nat × Nat) := [(0, 0), (1, 1), (2, 2), (3, 3)]
/-- `toString`, Extend204715.java:82. -/
def str : List StrPart := [.lit "Extend204715 [", .lit "expirationDays=", .field 0, .lit ", expirationType=", .field 1, .lit ", maturityDate=", .field 2, .lit ", shareProperty=", .field 3, .lit "]"]
/-- szse-bin/src/main/java/com/finproto/szse/bin/messages/Extend204715.java:8-95 -/
def decl : ClassDecl := ⟨"Extend204715", fields, acc, enc, dec, hash, eqs, str⟩
end Szse.Extend204715

/-! ### szse-bin/src/main/java/com/finproto/szse/bin/messages/Extend206302.java:10-171 -/
namespace Szse.Extend206302
/-- Fields, Extend206302.java:11-18. -/
def fields : List (String × FTy) := [("rejectText", .str), ("stopPx", .prim .i64), ("minQty", .prim .i64), ("maxPriceLevels", .prim .i16), ("timeInForce", .str), ("lotType", .str), ("imcrejectTextLen", .prim .i32), ("imcrejectText", .str)]
/-- Accessors (property, getter field, setter field), Extend206302.java:20-84. -/
def acc : List (String × Nat × Nat) := [("RejectText", 0, 0), ("StopPx", 1, 1), ("MinQty", 2, 2), ("MaxPriceLevels", 3, 3), ("TimeInForce", 4, 4), ("LotType", 5, 5), ("ImcrejectTextLen", 6, 6), ("ImcrejectText", 7, 7)]
/-- `encode`, Extend206302.java:84-100. -/
def enc : List EncStmt := [
  .fixed 0 16 0x20 false,  -- 86: rejectText
  .num 1 .i64 .be,  -- 87: stopPx
  .num 2 .i64 .be,  -- 88: minQty
  .num 3 .i16 .be,  -- 89: maxPriceLevels
  .fixed 4 1 0x20 false,  -- 90: timeInForce
  .fixed 5 1 0x20 false,  -- 91: lotType
  .num 6 .i32 .be,  -- 92: imcrejectTextLen
  .dyn 7 .i32 .i32 .be  -- 93: imcrejectText
]
/-- `decode`, Extend206302.java:102-116. -/
def dec : List DecStmt := [
  .fixed 0 16 0x20 false,  -- 104: rejectText
  .num 1 .i64 .be,  -- 105: stopPx
  .num 2 .i64 .be,  -- 106: minQty
  .num 3 .i16 .be,  -- 107: maxPriceLevels
  .fixed 4 1 0x20 false,  -- 108: timeInForce
  .fixed 5 1 0x20 false,  -- 109: lotType
  .num 6 .i32 .be,  -- 110: imcrejectTextLen
  .dyn 7 .i32 .be  -- 111: imcrejectText
]
/-- `hashCode`, Extend206302.java:118. -/
def hash : HashBody := .fields [0, 1, 2, 3, 4, 5, 6, 7]
/-- `equals`, Extend206302.java:131. -/
def eqs : List (Nat × Nat) := [(0, 0), (1, 1), (2, 2), (3, 3), (4, 4), (5, 5), (6, 6), (7, 7)]
/-- `toString`, Extend206302.java:150. -/
def str : List StrPart := [.lit "Extend206302 [", .lit "rejectText=", .field 0, .lit ", stopPx=", .field 1, .lit ", minQty=", .field 2, .lit ", maxPriceLevels=", .field 3, .lit ", timeInForce=", .field 4, .lit ", lotType=", .field 5, .lit ", imcrejectTextLen=", .field 6, .lit ", imcrejectText=", .field 7, .lit "]"]
/-- szse-bin/src/main/java/com/finproto/szse/bin/messages/Extend206302.java:10-171 -/
def decl : ClassDecl := ⟨"Extend206302", fields, acc, enc, dec, hash, eqs, str⟩
end Szse.Extend206302

/-! ### szse-bin/src/main/java/com/finproto/szse/bin/messages/Extend206315.java:8-50 -/
namespace Szse.Extend206315
/-- Fields, Extend206315.java:9-9. -/
def fields : List (String × FTy) := [("cashMargin", .str)]
/-- Accessors (property, getter field, setter field), Extend206315.java:11-19. -/
def acc : List (String × Nat × Nat) := [("CashMargin", 0, 0)]
/-- `encode`, Extend206315.java:19-22. -/
def enc : List EncStmt := [
  .fixed 0 1 0x20 false  -- 21: cashMargin
]
/-- `decode`, Extend206315.java:24-27. -/
def dec : List DecStmt := [
  .fixed 0 1 0x20 false  -- 26: cashMargin
]
/-- `hashCode`, Extend206315.java:29. -/
def hash : HashBody := .fields [0]
/-- `equals`, Extend206315.java:34. -/
def eqs : List (Nat × Nat) := [(0, 0)]
/-- `toString`, Extend206315.java:46. -/
def str : List StrPart := [.lit "Extend206315 [", .lit "cashMargin=", .field 0, .lit "]"]
/-- szse-bin/src/main/java/com/finproto/szse/bin/messages/Extend206315.java:8-50 -/
def decl : ClassDecl := ⟨"Extend206315", fields, acc, enc, dec, hash, eqs, str⟩
end Szse.Extend206315

/-! ### szse-bin/src/main/java/com/finproto/szse/bin/messages/Heartbeat.java:7-35 -/
namespace Szse.Heartbeat
/-- Fields (none), Heartbeat.java:7. -/
def fields : List (String × FTy) := []
/-- Accessors (property, getter field, setter field), Heartbeat.java:7. -/
def acc : List (String × Nat × Nat) := []
/-- `encode`, Heartbeat.java:9-10. -/
def enc : List EncStmt := [
]
/-- `decode`, Heartbeat.java:12-13. -/
def dec : List DecStmt := [
]
/-- `hashCode`, Heartbeat.java:15. -/
def hash : HashBody := .self
/-- `equals`, Heartbeat.java:20. -/
def eqs : List (Nat × Nat) := []
/-- `toString`, Heartbeat.java:31. -/
def str : List StrPart := [.lit "Heartbeat []"]
/-- szse-bin/src/main/java/com/finproto/szse/bin/messages/Heartbeat.java:7-35 -/
def decl : ClassDecl := ⟨"Heartbeat", fields, acc, enc, dec, hash, eqs, str⟩
end Szse.Heartbeat

/-! ### szse-bin/src/main/java/com/finproto/szse/bin/messages/Logon.java:8-109 -/
namespace Szse.Logon
/-- Fields, Logon.java:9-13. -/
def fields : List (String × FTy) := [("senderCompId", .str), ("targetCompId", .str), ("heartBtint", .prim .i32), ("password", .str), ("defaultApplVerId", .str)]
/-- Accessors (property, getter field, setter field), Logon.java:15-55. -/
def acc : List (String × Nat × Nat) := [("SenderCompId", 0, 0), ("TargetCompId", 1, 1), ("HeartBtint", 2, 2), ("Password", 3, 3), ("DefaultApplVerId", 4, 4)]
/-- `encode`, Logon.java:55-62. -/
def enc : List EncStmt := [
  .fixed 0 20 0x20 false,  -- 57: senderCompId
  .fixed 1 20 0x20 false,  -- 58: targetCompId
  .num 2 .i32 .be,  -- 59: heartBtint
  .fixed 3 16 0x20 false,  -- 60: password
  .fixed 4 32 0x20 false  -- 61: defaultApplVerId
]
/-- `decode`, Logon.java:64-71. -/
def dec : List DecStmt := [
  .fixed 0 20 0x20 false,  -- 66: senderCompId
  .fixed 1 20 0x20 false,  -- 67: targetCompId
  .num 2 .i32 .be,  -- 68: heartBtint
  .fixed 3 16 0x20 false,  -- 69: password
  .fixed 4 32 0x20 false  -- 70: defaultApplVerId
]
/-- `hashCode`, Logon.java:73. -/
def hash : HashBody := .fields [0, 1, 2, 3, 4]
/-- `equals`, Logon.java:78. -/
def eqs : List (Nat × Nat) := [(0, 0), (1, 1), (2, 2), (3, 3), (4, 4)]
/-- `toString`, Logon.java:94. -/
def str : List StrPart := [.lit "Logon [", .lit "senderCompId=", .field 0, .lit ", targetCompId=", .field 1, .lit ", heartBtint=", .field 2, .lit ", password=", .field 3, .lit ", defaultApplVerId=", .field 4, .lit "]"]
/-- szse-bin/src/main/java/com/finproto/szse/bin/messages/Logon.java:8-109 -/
def decl : ClassDecl := ⟨"Logon", fields, acc, enc, dec, hash, eqs, str⟩
end Szse.Logon

/-! ### szse-bin/src/main/java/com/finproto/szse/bin/messages/Logout.java:8-62 -/
namespace Szse.Logout
/-- Fields, Logout.java:9-10. -/
def fields : List (String × FTy) := [("sessionStatus", .prim .i32), ("text", .str)]
/-- Accessors (property, getter field, setter field), Logout.java:12-28. -/
def acc : List (String × Nat × Nat) := [("SessionStatus", 0, 0), ("Text", 1, 1)]
/-- `encode`, Logout.java:28-32. -/
def enc : List EncStmt := [
  .num 0 .i32 .be,  -- 30: sessionStatus
  .fixed 1 200 0x20 false  -- 31: text
]
/-- `decode`, Logout.java:34-38. -/
def dec : List DecStmt := [
  .num 0 .i32 .be,  -- 36: sessionStatus
  .fixed 1 200 0x20 false  -- 37: text
]
/-- `hashCode`, Logout.java:40. -/
def hash : HashBody := .fields [0, 1]
/-- `equals`, Logout.java:45. -/
def eqs : List (Nat × Nat) := [(0, 0), (1, 1)]
/-- `toString`, Logout.java:58. -/
def str : List StrPart := [.lit "Logout [", .lit "sessionStatus=", .field 0, .lit ", text=", .field 1, .lit "]"]
/-- szse-bin/src/main/java/com/finproto/szse/bin/messages/Logout.java:8-62 -/
def decl : ClassDecl := ⟨"Logout", fields, acc, enc, dec, hash, eqs, str⟩
end Szse.Logout

/-! ### szse-bin/src/main/java/com/finproto/szse/bin/messages/NewOrder.java:11-356 -/
namespace Szse.NewOrder
/-- Fields, NewOrder.java:12-28. -/
def fields : List (String × FTy) := [("applId", .str), ("submittingPbuid", .str), ("securityId", .str), ("securityIdsource", .str), ("ownerType", .prim .i16), ("clearingFirm", .str), ("transactTime", .prim .i64), ("userInfo", .str), ("clOrdId", .str), ("accountId", .str), ("branchId", .str), ("orderRestrictions", .str), ("side", .str), ("ordType", .str), ("orderQty", .prim .i64), ("price", .prim .i64), ("applExtend", .codec)]
/-- Accessors (property, getter field, setter field), NewOrder.java:30-166. -/
def acc : List (String × Nat × Nat) := [("ApplId", 0, 0), ("SubmittingPbuid", 1, 1), ("SecurityId", 2, 2), ("SecurityIdsource", 3, 3), ("OwnerType", 4, 4), ("ClearingFirm", 5, 5), ("TransactTime", 6, 6), ("UserInfo", 7, 7), ("ClOrdId", 8, 8), ("AccountId", 9, 9), ("BranchId", 10, 10), ("OrderRestrictions", 11, 11), ("Side", 12, 12), ("OrdType", 13, 13), ("OrderQty", 14, 14), ("Price", 15, 15), ("ApplExtend", 16, 16)]
/-- `encode`, NewOrder.java:166-187. -/
def enc : List EncStmt := [
  .fixed 0 3 0x20 false,  -- 168: applId
  .fixed 1 6 0x20 false,  -- 169: submittingPbuid
  .fixed 2 8 0x20 false,  -- 170: securityId
  .fixed 3 4 0x20 false,  -- 171: securityIdsource
  .num 4 .i16 .be,  -- 172: ownerType
  .fixed 5 2 0x20 false,  -- 173: clearingFirm
  .num 6 .i64 .be,  -- 174: transactTime
  .fixed 7 8 0x20 false,  -- 175: userInfo
  .fixed 8 10 0x20 false,  -- 176: clOrdId
  .fixed 9 12 0x20 false,  -- 177: accountId
  .fixed 10 4 0x20 false,  -- 178: branchId
  .fixed 11 4 0x20 false,  -- 179: orderRestrictions
  .fixed 12 1 0x20 false,  -- 180: side
  .fixed 13 1 0x20 false,  -- 181: ordType
  .num 14 .i64 .be,  -- 182: orderQty
  .num 15 .i64 .be,  -- 183: price
  .objOpt 16  -- 184: applExtend
]
/-- `decode`, NewOrder.java:189-209. -/
def dec : List DecStmt := [
  .fixed 0 3 0x20 false,  -- 191: applId
  .fixed 1 6 0x20 false,  -- 192: submittingPbuid
  .fixed 2 8 0x20 false,  -- 193: securityId
  .fixed 3 4 0x20 false,  -- 194: securityIdsource
  .num 4 .i16 .be,  -- 195: ownerType
  .fixed 5 2 0x20 false,  -- 196: clearingFirm
  .num 6 .i64 .be,  -- 197: transactTime
  .fixed 7 8 0x20 false,  -- 198: userInfo
  .fixed 8 10 0x20 false,  -- 199: clOrdId
  .fixed 9 12 0x20 false,  -- 200: accountId
  .fixed 10 4 0x20 false,  -- 201: branchId
  .fixed 11 4 0x20 false,  -- 202: orderRestrictions
  .fixed 12 1 0x20 false,  -- 203: side
  .fixed 13 1 0x20 false,  -- 204: ordType
  .num 14 .i64 .be,  -- 205: orderQty
  .num 15 .i64 .be,  -- 206: price
  .create 16 .szse_NewOrder 0,  -- 207: applExtend
  .call 16  -- 208: applExtend
]
/-- `hashCode`, NewOrder.java:211. -/
def hash : HashBody := .fields [0, 1, 2, 3, 4, 5, 6, 7, 8, 9, 10, 11, 12, 13, 14, 15, 16]
/-- `equals`, NewOrder.java:233. -/
def eqs : List (Nat × Nat) := [(0, 0), (1, 1), (2, 2), (3, 3), (4, 4), (5, 5), (6, 6), (7, 7), (8, 8), (9, 9), (10, 10), (11, 11), (12, 12), (13, 13), (14, 14), (15, 15), (16, 16)]
/-- `toString`, NewOrder.java:261. -/
def str : List StrPart := [.lit "NewOrder [", .lit "applId=", .field 0, .lit ", submittingPbuid=", .field 1, .lit ", securityId=", .field 2, .lit ", securityIdsource=", .field 3, .lit ", ownerType=", .field 4, .lit ", clearingFirm=", .field 5, .lit ", transactTime=", .field 6, .lit ", userInfo=", .field 7, .lit ", clOrdId=", .field 8, .lit ", accountId=", .field 9, .lit ", branchId=", .field 10, .lit ", orderRestrictions=", .field 11, .lit ", side=", .field 12, .lit ", ordType=", .field 13, .lit ", orderQty=", .field 14, .lit ", price=", .field 15, .lit ", applExtend=", .field 16, .lit "]"]
/-- szse-bin/src/main/java/com/finproto/szse/bin/messages/NewOrder.java:11-356 -/
def decl : ClassDecl := ⟨"NewOrder", fields, acc, enc, dec, hash, eqs, str⟩
end Szse.NewOrder

/-! ### szse-bin/src/main/java/com/finproto/szse/bin/messages/OrderCancelRequest.java:8-234 -/
namespace Szse.OrderCancelRequest
/-- Fields, OrderCancelRequest.java:9-21. -/
def fields : List (String × FTy) := [("applId", .str), ("submittingPbuid", .str), ("securityId", .str), ("securityIdsource", .str), ("ownerType", .prim .i16), ("clearingFirm", .str), ("transactTime", .prim .i64), ("userInfo", .str), ("clOrdId", .str), ("origClOrdId", .str), ("side", .str), ("orderId", .str), ("orderQty", .prim .i64)]
/-- Accessors (property, getter field, setter field), OrderCancelRequest.java:23-127. -/
def acc : List (String × Nat × Nat) := [("ApplId", 0, 0), ("SubmittingPbuid", 1, 1), ("SecurityId", 2, 2), ("SecurityIdsource", 3, 3), ("OwnerType", 4, 4), ("ClearingFirm", 5, 5), ("TransactTime", 6, 6), ("UserInfo", 7, 7), ("ClOrdId", 8, 8), ("OrigClOrdId", 9, 9), ("Side", 10, 10), ("OrderId", 11, 11), ("OrderQty", 12, 12)]
/-- `encode`, OrderCancelRequest.java:127-142. -/
def enc : List EncStmt := [
  .fixed 0 3 0x20 false,  -- 129: applId
  .fixed 1 6 0x20 false,  -- 130: submittingPbuid
  .fixed 2 8 0x20 false,  -- 131: securityId
  .fixed 3 4 0x20 false,  -- 132: securityIdsource
  .num 4 .i16 .be,  -- 133: ownerType
  .fixed 5 2 0x20 false,  -- 134: clearingFirm
  .num 6 .i64 .be,  -- 135: transactTime
  .fixed 7 8 0x20 false,  -- 136: userInfo
  .fixed 8 10 0x20 false,  -- 137: clOrdId
  .fixed 9 10 0x20 false,  -- 138: origClOrdId
  .fixed 10 1 0x20 false,  -- 139: side
  .fixed 11 16 0x20 false,  -- 140: orderId
  .num 12 .i64 .be  -- 141: orderQty
]
/-- `decode`, OrderCancelRequest.java:144-159. -/
def dec : List DecStmt := [
  .fixed 0 3 0x20 false,  -- 146: applId
  .fixed 1 6 0x20 false,  -- 147: submittingPbuid
  .fixed 2 8 0x20 false,  -- 148: securityId
  .fixed 3 4 0x20 false,  -- 149: securityIdsource
  .num 4 .i16 .be,  -- 150: ownerType
  .fixed 5 2 0x20 false,  -- 151: clearingFirm
  .num 6 .i64 .be,  -- 152: transactTime
  .fixed 7 8 0x20 false,  -- 153: userInfo
  .fixed 8 10 0x20 false,  -- 154: clOrdId
  .fixed 9 10 0x20 false,  -- 155: origClOrdId
  .fixed 10 1 0x20 false,  -- 156: side
  .fixed 11 16 0x20 false,  -- 157: orderId
  .num 12 .i64 .be  -- 158: orderQty
]
/-- `hashCode`, OrderCancelRequest.java:161. -/
def hash : HashBody := .fields [0, 1, 2, 3, 4, 5, 6, 7, 8, 9, 10, 11, 12]
/-- `equals`, OrderCancelRequest.java:179. -/
def eqs : List (Nat × Nat) := [(0, 0), (1, 1), (2, 2), (3, 3), (4, 4), (5, 5), (6, 6), (7, 7), (8, 8), (9, 9), (10, 10), (11, 11), (12, 12)]
/-- `toString`, OrderCancelRequest.java:203. -/
def str : List StrPart := [.lit "OrderCancelRequest [", .lit "applId=", .field 0, .lit ", submittingPbuid=", .field 1, .lit ", securityId=", .field 2, .lit ", securityIdsource=", .field 3, .lit ", ownerType=", .field 4, .lit ", clearingFirm=", .field 5, .lit ", transactTime=", .field 6, .lit ", userInfo=", .field 7, .lit ", clOrdId=", .field 8, .lit ", origClOrdId=", .field 9, .lit ", side=", .field 10, .lit ", orderId=", .field 11, .lit ", orderQty=", .field 12, .lit "]"]
/-- szse-bin/src/main/java/com/finproto/szse/bin/messages/OrderCancelRequest.java:8-234 -/
def decl : ClassDecl := ⟨"OrderCancelRequest", fields, acc, enc, dec, hash, eqs, str⟩
end Szse.OrderCancelRequest

/-! ### szse-bin/src/main/java/com/finproto/szse/bin/messages/PartitionReport.java:8-67 -/
namespace Szse.PartitionReport
/-- Fields, PartitionReport.java:9-10. -/
def fields : List (String × FTy) := [("partitionNo", .prim .i32), ("reportIndex", .prim .i64)]
/-- Accessors (property, getter field, setter field), PartitionReport.java:12-28. -/
def acc : List (String × Nat × Nat) := [("PartitionNo", 0, 0), ("ReportIndex", 1, 1)]
/-- `encode`, PartitionReport.java:28-32. -/
def enc : List EncStmt := [
  .num 0 .i32 .be,  -- 30: partitionNo
  .num 1 .i64 .be  -- 31: reportIndex
]
/-- `decode`, PartitionReport.java:34-38. -/
def dec : List DecStmt := [
  .num 0 .i32 .be,  -- 36: partitionNo
  .num 1 .i64 .be  -- 37: reportIndex
]
/-- `hashCode`, PartitionReport.java:40. -/
def hash : HashBody := .fields [0, 1]
/-- `equals`, PartitionReport.java:45. -/
def eqs : List (Nat × Nat) := [(0, 0), (1, 1)]
/-- `toString`, PartitionReport.java:58. -/
def str : List StrPart := [.lit "PartitionReport [", .lit "partitionNo=", .field 0, .lit ", reportIndex=", .field 1, .lit "]"]
/-- szse-bin/src/main/java/com/finproto/szse/bin/messages/PartitionReport.java:8-67 -/
def decl : ClassDecl := ⟨"PartitionReport", fields, acc, enc, dec, hash, eqs, str⟩
end Szse.PartitionReport

/-! ### szse-bin/src/main/java/com/finproto/szse/bin/messages/PlatformInfo.java:10-84 -/
namespace Szse.PlatformInfo
/-- Fields, PlatformInfo.java:11-12. -/
def fields : List (String × FTy) := [("platformId", .prim .i16), ("platformPartition", .list (.obj .szse_PlatformPartition))]
/-- Accessors (property, getter field, setter field), PlatformInfo.java:14-30. -/
def acc : List (String × Nat × Nat) := [("PlatformId", 0, 0), ("PlatformPartition", 1, 1)]
/-- `encode`, PlatformInfo.java:30-41. -/
def enc : List EncStmt := [
  .num 0 .i16 .be,  -- 32: platformId
  .list 1 .i32 .i32 .be (.obj)  -- 39: platformPartition
]
/-- `decode`, PlatformInfo.java:43-55. -/
def dec : List DecStmt := [
  .num 0 .i16 .be,  -- 45: platformId
  .list 1 .i32 .be (.obj .szse_PlatformPartition)  -- 53: platformPartition
]
/-- `hashCode`, PlatformInfo.java:57. -/
def hash : HashBody := .fields [0, 1]
/-- `equals`, PlatformInfo.java:62. -/
def eqs : List (Nat × Nat) := [(0, 0), (1, 1)]
/-- `toString`, PlatformInfo.java:75. -/
def str : List StrPart := [.lit "PlatformInfo [", .lit "platformId=", .field 0, .lit ", platformPartition=", .field 1, .lit "]"]
/-- szse-bin/src/main/java/com/finproto/szse/bin/messages/PlatformInfo.java:10-84 -/
def decl : ClassDecl := ⟨"PlatformInfo", fields, acc, enc, dec, hash, eqs, str⟩
end Szse.PlatformInfo

/-! ### szse-bin/src/main/java/com/finproto/szse/bin/messages/PlatformPartition.java:8-50 -/
namespace Szse.PlatformPartition
/-- Fields, PlatformPartition.java:9-9. -/
def fields : List (String × FTy) := [("partitionNo", .prim .i32)]
/-- Accessors (property, getter field, setter field), PlatformPartition.java:11-19. -/
def acc : List (String × Nat × Nat) := [("PartitionNo", 0, 0)]
/-- `encode`, PlatformPartition.java:19-22. -/
def enc : List EncStmt := [
  .num 0 .i32 .be  -- 21: partitionNo
]
/-- `decode`, PlatformPartition.java:24-27. -/
def dec : List DecStmt := [
  .num 0 .i32 .be  -- 26: partitionNo
]
/-- `hashCode`, PlatformPartition.java:29. -/
def hash : HashBody := .fields [0]
/-- `equals`, PlatformPartition.java:34. -/
def eqs : List (Nat × Nat) := [(0, 0)]
/-- `toString`, PlatformPartition.java:46. -/
def str : List StrPart := [.lit "PlatformPartition [", .lit "partitionNo=", .field 0, .lit "]"]
/-- szse-bin/src/main/java/com/finproto/szse/bin/messages/PlatformPartition.java:8-50 -/
def decl : ClassDecl := ⟨"PlatformPartition", fields, acc, enc, dec, hash, eqs, str⟩
end Szse.PlatformPartition

/-! ### szse-bin/src/main/java/com/finproto/szse/bin/messages/PlatformStateInfo.java:8-67 -/
namespace Szse.PlatformStateInfo
/-- Fields, PlatformStateInfo.java:9-10. -/
def fields : List (String × FTy) := [("platformId", .prim .i16), ("platformState", .prim .i16)]
/-- Accessors (property, getter field, setter field), PlatformStateInfo.java:12-28. -/
def acc : List (String × Nat × Nat) := [("PlatformId", 0, 0), ("PlatformState", 1, 1)]
/-- `encode`, PlatformStateInfo.java:28-32. -/
def enc : List EncStmt := [
  .num 0 .i16 .be,  -- 30: platformId
  .num 1 .i16 .be  -- 31: platformState
]
/-- `decode`, PlatformStateInfo.java:34-38. -/
def dec : List DecStmt := [
  .num 0 .i16 .be,  -- 36: platformId
  .num 1 .i16 .be  -- 37: platformState
]
/-- `hashCode`, PlatformStateInfo.java:40. -/
def hash : HashBody := .fields [0, 1]
/-- `equals`, PlatformStateInfo.java:45. -/
def eqs : List (Nat × Nat) := [(0, 0), (1, 1)]
/-- `toString`, PlatformStateInfo.java:58. -/
def str : List StrPart := [.lit "PlatformStateInfo [", .lit "platformId=", .field 0, .lit ", platformState=", .field 1, .lit "]"]
/-- szse-bin/src/main/java/com/finproto/szse/bin/messages/PlatformStateInfo.java:8-67 -/
def decl : ClassDecl := ⟨"PlatformStateInfo", fields, acc, enc, dec, hash, eqs, str⟩
end Szse.PlatformStateInfo

/-! ### szse-bin/src/main/java/com/finproto/szse/bin/messages/ReportFinished.java:8-81 -/
namespace Szse.ReportFinished
/-- Fields, ReportFinished.java:9-11. -/
def fields : List (String × FTy) := [("partitionNo", .prim .i32), ("reportIndex", .prim .i64), ("platformId", .prim .i16)]
/-- Accessors (property, getter field, setter field), ReportFinished.java:13-37. -/
def acc : List (String × Nat × Nat) := [("PartitionNo", 0, 0), ("ReportIndex", 1, 1), ("PlatformId", 2, 2)]
/-- `encode`, ReportFinished.java:37-42. -/
def enc : List EncStmt := [
  .num 0 .i32 .be,  -- 39: partitionNo
  .num 1 .i64 .be,  -- 40: reportIndex
  .num 2 .i16 .be  -- 41: platformId
]
/-- `decode`, ReportFinished.java:44-49. -/
def dec : List DecStmt := [
  .num 0 .i32 .be,  -- 46: partitionNo
  .num 1 .i64 .be,  -- 47: reportIndex
  .num 2 .i16 .be  -- 48: platformId
]
/-- `hashCode`, ReportFinished.java:51. -/
def hash : HashBody := .fields [0, 1, 2]
/-- `equals`, ReportFinished.java:56. -/
def eqs : List (Nat × Nat) := [(0, 0), (1, 1), (2, 2)]
/-- `toString`, ReportFinished.java:70. -/
def str : List StrPart := [.lit "ReportFinished [", .lit "partitionNo=", .field 0, .lit ", reportIndex=", .field 1, .lit ", platformId=", .field 2, .lit "]"]
/-- szse-bin/src/main/java/com/finproto/szse/bin/messages/ReportFinished.java:8-81 -/
def decl : ClassDecl := ⟨"ReportFinished", fields, acc, enc, dec, hash, eqs, str⟩
end Szse.ReportFinished

/-! ### szse-bin/src/main/java/com/finproto/szse/bin/messages/ReportSynchronization.java:10-67 -/
namespace Szse.ReportSynchronization
/-- Fields, ReportSynchronization.java:11-11. -/
def fields : List (String × FTy) := [("partitionReport", .list (.obj .szse_PartitionReport))]
/-- Accessors (property, getter field, setter field), ReportSynchronization.java:13-21. -/
def acc : List (String × Nat × Nat) := [("PartitionReport", 0, 0)]
/-- `encode`, ReportSynchronization.java:21-31. -/
def enc : List EncStmt := [
  .list 0 .i32 .i32 .be (.obj)  -- 29: partitionReport
]
/-- `decode`, ReportSynchronization.java:33-44. -/
def dec : List DecStmt := [
  .list 0 .i32 .be (.obj .szse_PartitionReport)  -- 42: partitionReport
]
/-- `hashCode`, ReportSynchronization.java:46. -/
def hash : HashBody := .fields [0]
/-- `equals`, ReportSynchronization.java:51. -/
def eqs : List (Nat × Nat) := [(0, 0)]
/-- `toString`, ReportSynchronization.java:63. -/
def str : List StrPart := [.lit "ReportSynchronization [", .lit "partitionReport=", .field 0, .lit "]"]
/-- szse-bin/src/main/java/com/finproto/szse/bin/messages/ReportSynchronization.java:10-67 -/
def decl : ClassDecl := ⟨"ReportSynchronization", fields, acc, enc, dec, hash, eqs, str⟩
end Szse.ReportSynchronization

/-! ### szse-bin/src/main/java/com/finproto/szse/bin/messages/SzseBinary.java:13-219 -/
namespace Szse.SzseBinary
/-- Fields, SzseBinary.java:14-17. -/
def fields : List (String × FTy) := [("msgType", .prim .i32), ("bodyLength", .prim .i32), ("body", .codec), ("checksum", .prim .i32)]
/-- Accessors (property, getter field, setter field), SzseBinary.java:19-51. -/
def acc : List (String × Nat × Nat) := [("MsgType", 0, 0), ("BodyLength", 1, 1), ("Body", 2, 2), ("Checksum", 3, 3)]
/-- `encode`, SzseBinary.java:51-70. -/
def enc : List EncStmt := [
  .num 0 .i32 .be,  -- 53: msgType
  .save 0,  -- 54: int bodyLengthPos
  .zero .i32 .be,  -- 55: write(0)
  .save 1,  -- 57: int bodyStart
  .objOpt 2,  -- 58: body
  .save 2,  -- 61: int bodyEnd
  .setLen 1 2 1,  -- 62: bodyLength = bodyEnd - bodyStart
  .patch 0 1 .i32 .be,  -- 63: set(bodyLengthPos, bodyLength)
  .checksum 3 "SZSE_BIN",  -- 64: checksum
  .num 3 .i32 .be  -- 69: checksum
]
/-- `decode`, SzseBinary.java:72-79. -/
def dec : List DecStmt := [
  .num 0 .i32 .be,  -- 74: msgType
  .num 1 .i32 .be,  -- 75: bodyLength
  .create 2 .szse_SzseBinary 0,  -- 76: body
  .call 2,  -- 77: body
  .num 3 .i32 .be  -- 78: checksum
]
/-- `hashCode`, SzseBinary.java:81. -/
def hash : HashBody := .fields [0, 1, 2, 3]
/-- `equals`, SzseBinary.java:86. -/
def eqs : List (Nat × Nat) := [(0, 0), (1, 1), (2, 2), (3, 3)]
/-- `toString`, SzseBinary.java:101. -/
def str : List StrPart := [.lit "SzseBinary [", .lit "msgType=", .field 0, .lit ", bodyLength=", .field 1, .lit ", body=", .field 2, .lit ", checksum=", .field 3, .lit "]"]
/-- szse-bin/src/main/java/com/finproto/szse/bin/messages/SzseBinary.java:13-219 -/
def decl : ClassDecl := ⟨"SzseBinary", fields, acc, enc, dec, hash, eqs, str⟩
end Szse.SzseBinary

/-! ### szse-bin/src/main/java/com/finproto/szse/bin/messages/TradingSessionStatus.java:8-144 -/
namespace Szse.TradingSessionStatus
/-- Fields, TradingSessionStatus.java:9-15. -/
def fields : List (String × FTy) := [("marketId", .str), ("marketSegmentId", .str), ("tradingSessionId", .str), ("tradingSessionSubId", .str), ("tradSesStatus", .prim .i16), ("tradSesStartTime", .prim .i64), ("tradSesEndTime", .prim .i64)]
/-- Accessors (property, getter field, setter field), TradingSessionStatus.java:17-73. -/
def acc : List (String × Nat × Nat) := [("MarketId", 0, 0), ("MarketSegmentId", 1, 1), ("TradingSessionId", 2, 2), ("TradingSessionSubId", 3, 3), ("TradSesStatus", 4, 4), ("TradSesStartTime", 5, 5), ("TradSesEndTime", 6, 6)]
/-- `encode`, TradingSessionStatus.java:73-82. -/
def enc : List EncStmt := [
  .fixed 0 8 0x20 false,  -- 75: marketId
  .fixed 1 8 0x20 false,  -- 76: marketSegmentId
  .fixed 2 4 0x20 false,  -- 77: tradingSessionId
  .fixed 3 4 0x20 false,  -- 78: tradingSessionSubId
  .num 4 .i16 .be,  -- 79: tradSesStatus
  .num 5 .i64 .be,  -- 80: tradSesStartTime
  .num 6 .i64 .be  -- 81: tradSesEndTime
]
/-- `decode`, TradingSessionStatus.java:84-93. -/
def dec : List DecStmt := [
  .fixed 0 8 0x20 false,  -- 86: marketId
  .fixed 1 8 0x20 false,  -- 87: marketSegmentId
  .fixed 2 4 0x20 false,  -- 88: tradingSessionId
  .fixed 3 4 0x20 false,  -- 89: tradingSessionSubId
  .num 4 .i16 .be,  -- 90: tradSesStatus
  .num 5 .i64 .be,  -- 91: tradSesStartTime
  .num 6 .i64 .be  -- 92: tradSesEndTime
]
/-- `hashCode`, TradingSessionStatus.java:95. -/
def hash : HashBody := .fields [0, 1, 2, 3, 4, 5, 6]
/-- `equals`, TradingSessionStatus.java:107. -/
def eqs : List (Nat × Nat) := [(0, 0), (1, 1), (2, 2), (3, 3), (4, 4), (5, 5), (6, 6)]
/-- `toString`, TradingSessionStatus.java:125. -/
def str : List StrPart := [.lit "TradingSessionStatus [", .lit "marketId=", .field 0, .lit ", marketSegmentId=", .field 1, .lit ", tradingSessionId=", .field 2, .lit ", tradingSessionSubId=", .field 3, .lit ", tradSesStatus=", .field 4, .lit ", tradSesStartTime=", .field 5, .lit ", tradSesEndTime=", .field 6, .lit "]"]
/-- szse-bin/src/main/java/com/finproto/szse/bin/messages/TradingSessionStatus.java:8-144 -/
def decl : ClassDecl := ⟨"TradingSessionStatus", fields, acc, enc, dec, hash, eqs, str⟩
end Szse.TradingSessionStatus

end FinProto
