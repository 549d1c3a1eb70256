import Verif.PropsMerge
import Verif.PropsVars
import Verif.PropsAlias
import Verif.PropsFiles
import Verif.PropsBackend
import Verif.PropsUciRender
import Verif.PropsUciRound
import Verif.PropsArchive
import Verif.PropsConv
import Verif.PropsRoutes
import Verif.PropsPeers
import Verif.PropsDefault
import Verif.PropsSwitch
import Verif.PropsRadio
import Verif.PropsOpenWrtChecks
import Verif.PropsWireless
import Verif.PropsWifiRound
import Verif.PropsVpnSamples
import Verif.WireGuard
import Verif.PropsWireGuard
import Verif.PropsVpnArchive
import Verif.PropsWgSamples
import Verif.OpenWrt
import Verif.IfaceAddr
import Verif.IfaceFwd
import Verif.IfaceBack
import Verif.IfaceList
import Verif.IfaceEth
import Verif.IfaceBridge
import Verif.IfaceBridgeBack
import Verif.PropsIfaces
import Verif.PropsIfaceSamples
import Verif.Cli
import Verif.PropsCli
import Verif.OpenWisp
import Verif.PropsOpenWisp
import Verif.PropsOwFiles
import Verif.PropsZeroTier
import Verif.PropsZtRound
import Verif.PropsSections
import Verif.PropsSectionRun
import Verif.PropsSectionSamples
import Verif.PropsOwContext
import Verif.Compose
import Verif.WholeIfaces
import Verif.WholeParts
import Verif.WholeGeneral
import Verif.WholeNetwork
import Verif.WholeRest
import Verif.WholeWifi
import Verif.Whole
import Verif.WholeBack
import Verif.PropsWhole
import Verif.PropsWholeSample
import Verif.Json
import Verif.PropsJson
import Verif.ZtBackend
import Verif.PropsZtText
import Verif.PropsZtBackend
import Verif.PropsZtArchive
import Verif.SchemaData
import Verif.Schema
import Verif.SchemaFacts
import Verif.Safe
import Verif.SafeConv
import Verif.SafeIfaces
import Verif.SafeRest
import Verif.SafeRender
import Verif.SchemaOw
import Verif.SchemaChecks
import Verif.PropsValid
import Verif.PropsValidNeeds
import Verif.PropsValidSample
import Verif.ZoneChars
import Verif.PropsZones
import Verif.PropsWrite
import Verif.PropsIfaceItems
import Verif.PropsIfaceItemSamples
import Verif.PropsClasses
import Verif.PropsVpnUci
import Verif.SchemaSpec
import Verif.SchemaMore
import Verif.PropsSchema
import Verif.PropsValidVpn
import Verif.PropsValidVpnSample
import Verif.OverAttr
import Verif.Over
import Verif.OverConv
import Verif.OverIfaces
import Verif.OverMerge
import Verif.OverRun
import Verif.PropsUciLines
import Verif.PropsUnforged
import Verif.PropsNames
import Verif.PropsConstructed
import Verif.PropsNamesSamples
import Verif.SameAttr
import Verif.Same
import Verif.SameConv
import Verif.SameVpn
import Verif.SameIfaces
import Verif.SameRun
import Verif.SameAll
import Verif.SameValid
import Verif.PropsOrder
import Verif.PropsOrderSample
import Verif.PropsCommute
import Verif.PropsCommuteSample
import Verif.PropsLocal
import Verif.PropsLocalSample
import Verif.OpenWispScripts
import Verif.PropsOwScripts
import Verif.PropsOwInstall
import Verif.PropsOwLines
import Verif.PropsOwTc
import Verif.PropsOwDoes
import Verif.SchemaOwisp
import Verif.PropsValidOwisp
import Verif.PropsValidOwispSample
import Verif.PropsVpnSays
import Verif.PropsVpnBelow
import Verif.PropsVpnOrder
import Verif.PropsVpnOrderSample
import Verif.PropsHistory
import Verif.HistoryValid
import Verif.PropsHistoryReal
import Verif.PropsHistorySample
import Verif.PropsHistoryOwisp
import Verif.PropsHistoryOwSample
import Verif.AutoValid
import Verif.AutoServer
import Verif.PropsAuto
import Verif.PropsAutoRender
import Verif.PropsAutoSample
import Verif.PropsAutoWg
import Verif.PropsAutoWgSample
import Verif.PropsAutoZt
import Verif.Errors
import Verif.PropsErrors
import Verif.PropsErrorsSample
import Verif.PropsMeaning
import Verif.PropsMeaningSample
import Verif.CliMore
import Verif.PropsCliMore
import Verif.PropsCliMoreSample
import Verif.PropsPreMap
import Verif.PropsPre
import Verif.PropsPreSample
import Verif.PropsFileLayers
import Verif.PropsFileLayersSample
import Verif.SchemaRadio
import Verif.PropsWifiItems
import Verif.PropsWifiItemsSample
import Verif.PropsNetItems
import Verif.PropsNetItemsSample
import Verif.PropsSysItems
import Verif.PropsSysItemsSample
import Verif.PropsVpnItems
import Verif.PropsZtItems
import Verif.PropsExtraItems
import Verif.PropsExtraItemsSample
import Verif.PropsOwnPackages
import Verif.PropsOwnPackagesSample
