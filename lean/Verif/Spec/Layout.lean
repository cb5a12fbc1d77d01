import Verif.Spec.LayoutSample
import Verif.Spec.LayoutSse
import Verif.Spec.LayoutSzse
import Verif.Spec.LayoutBjse
import Verif.Spec.LayoutRisk
import Verif.Spec.LayoutFrames
/- GENERATED by tools/gen.py; do not edit. -/
namespace FinProto

/-- The wire layout of every message class. -/
def layout : Cls → List (String × WTy)
  | .sample_BasicPacket => Layout.sample_BasicPacket
  | .sample_EmptyPacket => Layout.sample_EmptyPacket
  | .sample_NestedPacket => Layout.sample_NestedPacket
  | .sample_NestedPacket_InerPacket => Layout.sample_NestedPacket_InerPacket
  | .sample_RootPacket => Layout.sample_RootPacket
  | .sample_StringPacket => Layout.sample_StringPacket
  | .sample_SubPacket => Layout.sample_SubPacket
  | .sse_CancelReject => Layout.sse_CancelReject
  | .sse_Confirm => Layout.sse_Confirm
  | .sse_ExecRptEndOfStream => Layout.sse_ExecRptEndOfStream
  | .sse_ExecRptInfo => Layout.sse_ExecRptInfo
  | .sse_ExecRptSync => Layout.sse_ExecRptSync
  | .sse_ExecRptSync_SubExecRptSync => Layout.sse_ExecRptSync_SubExecRptSync
  | .sse_ExecRptSyncRsp => Layout.sse_ExecRptSyncRsp
  | .sse_ExecRptSyncRsp_SubExecRptSyncRsp => Layout.sse_ExecRptSyncRsp_SubExecRptSyncRsp
  | .sse_Heartbeat => Layout.sse_Heartbeat
  | .sse_Logon => Layout.sse_Logon
  | .sse_Logout => Layout.sse_Logout
  | .sse_NewOrderSingle => Layout.sse_NewOrderSingle
  | .sse_OrderCancel => Layout.sse_OrderCancel
  | .sse_OrderReject => Layout.sse_OrderReject
  | .sse_PlatformState => Layout.sse_PlatformState
  | .sse_Report => Layout.sse_Report
  | .sse_SseBinary => Layout.sse_SseBinary
  | .szse_BusinessReject => Layout.szse_BusinessReject
  | .szse_CancelReject => Layout.szse_CancelReject
  | .szse_ExecutionConfirm => Layout.szse_ExecutionConfirm
  | .szse_ExecutionReport => Layout.szse_ExecutionReport
  | .szse_Extend100101 => Layout.szse_Extend100101
  | .szse_Extend100201 => Layout.szse_Extend100201
  | .szse_Extend100301 => Layout.szse_Extend100301
  | .szse_Extend100501 => Layout.szse_Extend100501
  | .szse_Extend100601 => Layout.szse_Extend100601
  | .szse_Extend100701 => Layout.szse_Extend100701
  | .szse_Extend101401 => Layout.szse_Extend101401
  | .szse_Extend101501 => Layout.szse_Extend101501
  | .szse_Extend101601 => Layout.szse_Extend101601
  | .szse_Extend101701 => Layout.szse_Extend101701
  | .szse_Extend101801 => Layout.szse_Extend101801
  | .szse_Extend102701 => Layout.szse_Extend102701
  | .szse_Extend102801 => Layout.szse_Extend102801
  | .szse_Extend102901 => Layout.szse_Extend102901
  | .szse_Extend103501 => Layout.szse_Extend103501
  | .szse_Extend103701 => Layout.szse_Extend103701
  | .szse_Extend104101 => Layout.szse_Extend104101
  | .szse_Extend104128 => Layout.szse_Extend104128
  | .szse_Extend104701 => Layout.szse_Extend104701
  | .szse_Extend106301 => Layout.szse_Extend106301
  | .szse_Extend200102 => Layout.szse_Extend200102
  | .szse_Extend200115 => Layout.szse_Extend200115
  | .szse_Extend200202 => Layout.szse_Extend200202
  | .szse_Extend200215 => Layout.szse_Extend200215
  | .szse_Extend200302 => Layout.szse_Extend200302
  | .szse_Extend200315 => Layout.szse_Extend200315
  | .szse_Extend200402 => Layout.szse_Extend200402
  | .szse_Extend200415 => Layout.szse_Extend200415
  | .szse_Extend200502 => Layout.szse_Extend200502
  | .szse_Extend200515 => Layout.szse_Extend200515
  | .szse_Extend200602 => Layout.szse_Extend200602
  | .szse_Extend200615 => Layout.szse_Extend200615
  | .szse_Extend200702 => Layout.szse_Extend200702
  | .szse_Extend200715 => Layout.szse_Extend200715
  | .szse_Extend201202 => Layout.szse_Extend201202
  | .szse_Extend201502 => Layout.szse_Extend201502
  | .szse_Extend201602 => Layout.szse_Extend201602
  | .szse_Extend201702 => Layout.szse_Extend201702
  | .szse_Extend201802 => Layout.szse_Extend201802
  | .szse_Extend202702 => Layout.szse_Extend202702
  | .szse_Extend202802 => Layout.szse_Extend202802
  | .szse_Extend202902 => Layout.szse_Extend202902
  | .szse_Extend203102 => Layout.szse_Extend203102
  | .szse_Extend203502 => Layout.szse_Extend203502
  | .szse_Extend203702 => Layout.szse_Extend203702
  | .szse_Extend203715 => Layout.szse_Extend203715
  | .szse_Extend204102 => Layout.szse_Extend204102
  | .szse_Extend204115 => Layout.szse_Extend204115
  | .szse_Extend204129 => Layout.szse_Extend204129
  | .szse_Extend204130 => Layout.szse_Extend204130
  | .szse_Extend204702 => Layout.szse_Extend204702
  | .szse_Extend204715 => Layout.szse_Extend204715
  | .szse_Extend206302 => Layout.szse_Extend206302
  | .szse_Extend206315 => Layout.szse_Extend206315
  | .szse_Heartbeat => Layout.szse_Heartbeat
  | .szse_Logon => Layout.szse_Logon
  | .szse_Logout => Layout.szse_Logout
  | .szse_NewOrder => Layout.szse_NewOrder
  | .szse_OrderCancelRequest => Layout.szse_OrderCancelRequest
  | .szse_PartitionReport => Layout.szse_PartitionReport
  | .szse_PlatformInfo => Layout.szse_PlatformInfo
  | .szse_PlatformPartition => Layout.szse_PlatformPartition
  | .szse_PlatformStateInfo => Layout.szse_PlatformStateInfo
  | .szse_ReportFinished => Layout.szse_ReportFinished
  | .szse_ReportSynchronization => Layout.szse_ReportSynchronization
  | .szse_SzseBinary => Layout.szse_SzseBinary
  | .szse_TradingSessionStatus => Layout.szse_TradingSessionStatus
  | .bjse_AllegeQuote => Layout.bjse_AllegeQuote
  | .bjse_AllegeQuoteExtend070 => Layout.bjse_AllegeQuoteExtend070
  | .bjse_AllegeQuoteResponse => Layout.bjse_AllegeQuoteResponse
  | .bjse_BjseBinary => Layout.bjse_BjseBinary
  | .bjse_BusinessReject => Layout.bjse_BusinessReject
  | .bjse_CancelReject => Layout.bjse_CancelReject
  | .bjse_ConfirmExtend010 => Layout.bjse_ConfirmExtend010
  | .bjse_ConfirmExtend040 => Layout.bjse_ConfirmExtend040
  | .bjse_ConfirmExtend041 => Layout.bjse_ConfirmExtend041
  | .bjse_ConfirmExtend042 => Layout.bjse_ConfirmExtend042
  | .bjse_ConfirmExtend043 => Layout.bjse_ConfirmExtend043
  | .bjse_ConfirmExtend044 => Layout.bjse_ConfirmExtend044
  | .bjse_ConfirmExtend045 => Layout.bjse_ConfirmExtend045
  | .bjse_ConfirmExtend050 => Layout.bjse_ConfirmExtend050
  | .bjse_ExecutionConfirm => Layout.bjse_ExecutionConfirm
  | .bjse_ExecutionReport => Layout.bjse_ExecutionReport
  | .bjse_Extend010 => Layout.bjse_Extend010
  | .bjse_Extend040 => Layout.bjse_Extend040
  | .bjse_Extend041 => Layout.bjse_Extend041
  | .bjse_Extend042 => Layout.bjse_Extend042
  | .bjse_Extend043 => Layout.bjse_Extend043
  | .bjse_Extend044 => Layout.bjse_Extend044
  | .bjse_Extend045 => Layout.bjse_Extend045
  | .bjse_Extend050 => Layout.bjse_Extend050
  | .bjse_ExtendNewOrder010 => Layout.bjse_ExtendNewOrder010
  | .bjse_ExtendNewOrder040 => Layout.bjse_ExtendNewOrder040
  | .bjse_ExtendNewOrder041 => Layout.bjse_ExtendNewOrder041
  | .bjse_ExtendNewOrder042 => Layout.bjse_ExtendNewOrder042
  | .bjse_ExtendNewOrder043 => Layout.bjse_ExtendNewOrder043
  | .bjse_ExtendNewOrder044 => Layout.bjse_ExtendNewOrder044
  | .bjse_ExtendNewOrder045 => Layout.bjse_ExtendNewOrder045
  | .bjse_ExtendNewOrder050 => Layout.bjse_ExtendNewOrder050
  | .bjse_Heartbeat => Layout.bjse_Heartbeat
  | .bjse_Logon => Layout.bjse_Logon
  | .bjse_Logout => Layout.bjse_Logout
  | .bjse_NewOrder => Layout.bjse_NewOrder
  | .bjse_OrderCancelRequest => Layout.bjse_OrderCancelRequest
  | .bjse_PlatformInfo => Layout.bjse_PlatformInfo
  | .bjse_PlatformInfo_NoPartitions => Layout.bjse_PlatformInfo_NoPartitions
  | .bjse_PlatformStateInfo => Layout.bjse_PlatformStateInfo
  | .bjse_Quote => Layout.bjse_Quote
  | .bjse_QuoteExtend070 => Layout.bjse_QuoteExtend070
  | .bjse_QuoteExtend071 => Layout.bjse_QuoteExtend071
  | .bjse_QuoteResponse => Layout.bjse_QuoteResponse
  | .bjse_QuoteResponse_Quote2 => Layout.bjse_QuoteResponse_Quote2
  | .bjse_QuoteResponseExtend070 => Layout.bjse_QuoteResponseExtend070
  | .bjse_QuoteStatusReport => Layout.bjse_QuoteStatusReport
  | .bjse_QuoteStatusReportExtend070 => Layout.bjse_QuoteStatusReportExtend070
  | .bjse_QuoteStatusReportExtend070_Quote1 => Layout.bjse_QuoteStatusReportExtend070_Quote1
  | .bjse_ReportExtend010 => Layout.bjse_ReportExtend010
  | .bjse_ReportExtend040 => Layout.bjse_ReportExtend040
  | .bjse_ReportExtend050 => Layout.bjse_ReportExtend050
  | .bjse_ReportFinished => Layout.bjse_ReportFinished
  | .bjse_ReportSynchronization => Layout.bjse_ReportSynchronization
  | .bjse_ReportSynchronization_ReportPartitionSync => Layout.bjse_ReportSynchronization_ReportPartitionSync
  | .bjse_TradeCaptureCofirm => Layout.bjse_TradeCaptureCofirm
  | .bjse_TradeCaptureCofirmExtend031 => Layout.bjse_TradeCaptureCofirmExtend031
  | .bjse_TradeCaptureCofirmExtend051 => Layout.bjse_TradeCaptureCofirmExtend051
  | .bjse_TradeCaptureCofirmExtend060 => Layout.bjse_TradeCaptureCofirmExtend060
  | .bjse_TradeCaptureCofirmExtend061 => Layout.bjse_TradeCaptureCofirmExtend061
  | .bjse_TradeCaptureCofirmExtend062 => Layout.bjse_TradeCaptureCofirmExtend062
  | .bjse_TradeCaptureConfirm => Layout.bjse_TradeCaptureConfirm
  | .bjse_TradeCaptureConfirmExtend031 => Layout.bjse_TradeCaptureConfirmExtend031
  | .bjse_TradeCaptureConfirmExtend051 => Layout.bjse_TradeCaptureConfirmExtend051
  | .bjse_TradeCaptureConfirmExtend060 => Layout.bjse_TradeCaptureConfirmExtend060
  | .bjse_TradeCaptureConfirmExtend061 => Layout.bjse_TradeCaptureConfirmExtend061
  | .bjse_TradeCaptureConfirmExtend062 => Layout.bjse_TradeCaptureConfirmExtend062
  | .bjse_TradeCaptureReport => Layout.bjse_TradeCaptureReport
  | .bjse_TradeCaptureReportAck => Layout.bjse_TradeCaptureReportAck
  | .bjse_TradeCaptureReportAckExtend031 => Layout.bjse_TradeCaptureReportAckExtend031
  | .bjse_TradeCaptureReportAckExtend051 => Layout.bjse_TradeCaptureReportAckExtend051
  | .bjse_TradeCaptureReportAckExtend060 => Layout.bjse_TradeCaptureReportAckExtend060
  | .bjse_TradeCaptureReportAckExtend061 => Layout.bjse_TradeCaptureReportAckExtend061
  | .bjse_TradeCaptureReportAckExtend062 => Layout.bjse_TradeCaptureReportAckExtend062
  | .bjse_TradeCaptureReportExtend031 => Layout.bjse_TradeCaptureReportExtend031
  | .bjse_TradeCaptureReportExtend051 => Layout.bjse_TradeCaptureReportExtend051
  | .bjse_TradeCaptureReportExtend060 => Layout.bjse_TradeCaptureReportExtend060
  | .bjse_TradeCaptureReportExtend061 => Layout.bjse_TradeCaptureReportExtend061
  | .bjse_TradeCaptureReportExtend062 => Layout.bjse_TradeCaptureReportExtend062
  | .bjse_TradingSessionStatus => Layout.bjse_TradingSessionStatus
  | .risk_CancelReject => Layout.risk_CancelReject
  | .risk_ExecutionReport => Layout.risk_ExecutionReport
  | .risk_NewOrder => Layout.risk_NewOrder
  | .risk_OrderCancel => Layout.risk_OrderCancel
  | .risk_OrderConfirm => Layout.risk_OrderConfirm
  | .risk_RcBinary => Layout.risk_RcBinary
  | .risk_RiskResult => Layout.risk_RiskResult

end FinProto
