import Verif.Lemmas.Aes
import Verif.Lemmas.CamCalm
import Verif.Lemmas.CamDevice
import Verif.Lemmas.CamFaithful
import Verif.Lemmas.CamNetwork
import Verif.Lemmas.CamSound
import Verif.Lemmas.ChildNetwork
import Verif.Lemmas.Cli
import Verif.Lemmas.DiscoverEnds
import Verif.Lemmas.DiscoverRuns
import Verif.Lemmas.DiscoverTasks
import Verif.Lemmas.ErrorCodes
import Verif.Lemmas.Faithful
import Verif.Lemmas.Heals
import Verif.Lemmas.HttpSessions
import Verif.Lemmas.IotDevice
import Verif.Lemmas.IotReadings
import Verif.Lemmas.JsonExtend
import Verif.Lemmas.JsonFuel
import Verif.Lemmas.JsonText
import Verif.Lemmas.Klap
import Verif.Lemmas.LightNetwork
import Verif.Lemmas.Num
import Verif.Lemmas.ReadBack
import Verif.Lemmas.Redact
import Verif.Lemmas.RetryLoop
import Verif.Lemmas.SmartCompose
import Verif.Lemmas.SmartDevice
import Verif.Lemmas.SmartProtocol
import Verif.Lemmas.Ssl
import Verif.Lemmas.SslAes
import Verif.Lemmas.Xor
import Verif.Lemmas.XorTransport
import Verif.Model.Aes
import Verif.Model.Alarm
import Verif.Model.Behaviours
import Verif.Model.CamChild
import Verif.Model.CamDevice
import Verif.Model.Camera
import Verif.Model.ChildProtocol
import Verif.Model.ChildSetup
import Verif.Model.Cli
import Verif.Model.CliChild
import Verif.Model.CliCommands
import Verif.Model.CliConfig
import Verif.Model.CliDiscover
import Verif.Model.CliGroups
import Verif.Model.Config
import Verif.Model.Connect
import Verif.Model.Consumables
import Verif.Model.Deprecated
import Verif.Model.DeviceInfo
import Verif.Model.Discover
import Verif.Model.DiscoverData
import Verif.Model.DiscoverTasks
import Verif.Model.Effects
import Verif.Model.Emeter
import Verif.Model.ErrorCodes
import Verif.Model.Exceptions
import Verif.Model.Factory
import Verif.Model.Feature
import Verif.Model.Features
import Verif.Model.Firmware
import Verif.Model.HttpClient
import Verif.Model.HttpSessions
import Verif.Model.IotCloud
import Verif.Model.IotDevice
import Verif.Model.IotReadings
import Verif.Model.IotSetup
import Verif.Model.JsonText
import Verif.Model.Klap
import Verif.Model.LightCalls
import Verif.Model.LightEffects
import Verif.Model.LightReading
import Verif.Model.Lights
import Verif.Model.Linkie
import Verif.Model.Listing
import Verif.Model.Meter
import Verif.Model.Motion
import Verif.Model.Names
import Verif.Model.OnSince
import Verif.Model.Presets
import Verif.Model.QueryLock
import Verif.Model.Redact
import Verif.Model.RetryLoop
import Verif.Model.Rules
import Verif.Model.Sensors
import Verif.Model.Setters
import Verif.Model.Settings
import Verif.Model.SmartCamProtocol
import Verif.Model.SmartDevice
import Verif.Model.SmartModule
import Verif.Model.SmartProtocol
import Verif.Model.SmartReadings
import Verif.Model.SmartText
import Verif.Model.Speaker
import Verif.Model.Ssl
import Verif.Model.SslAes
import Verif.Model.Stream
import Verif.Model.Strip
import Verif.Model.StripData
import Verif.Model.SysInfo
import Verif.Model.Thermostat
import Verif.Model.ThermostatModule
import Verif.Model.TimeZone
import Verif.Model.Vacuum
import Verif.Model.Xor
import Verif.Model.XorTransport
import Verif.Model.ZoneMatch
import Verif.Props.Aes
import Verif.Props.AesEndToEnd
import Verif.Props.AesReliable
import Verif.Props.Alarm
import Verif.Props.Behaviours
import Verif.Props.CamChild
import Verif.Props.CamDevice
import Verif.Props.CamEndToEnd
import Verif.Props.CamNetwork
import Verif.Props.CamReliable
import Verif.Props.CamUpdate
import Verif.Props.Camera
import Verif.Props.ChildNetwork
import Verif.Props.ChildProtocol
import Verif.Props.ChildSetup
import Verif.Props.Cli
import Verif.Props.CliChild
import Verif.Props.CliCommands
import Verif.Props.CliConfig
import Verif.Props.CliDiscover
import Verif.Props.CliGroups
import Verif.Props.CliJson
import Verif.Props.CliSearch
import Verif.Props.Config
import Verif.Props.Connect
import Verif.Props.Consumables
import Verif.Props.Deprecated
import Verif.Props.DeviceInfo
import Verif.Props.Discover
import Verif.Props.DiscoverData
import Verif.Props.DiscoverTasks
import Verif.Props.Emeter
import Verif.Props.EndToEnd
import Verif.Props.ErrorCodes
import Verif.Props.Factory
import Verif.Props.Feature
import Verif.Props.Features
import Verif.Props.Firmware
import Verif.Props.HttpClient
import Verif.Props.HttpSessions
import Verif.Props.IotCloud
import Verif.Props.IotDevice
import Verif.Props.IotReadings
import Verif.Props.IotSetup
import Verif.Props.JsonText
import Verif.Props.Klap
import Verif.Props.KlapReliable
import Verif.Props.LegacyEndToEnd
import Verif.Props.LightEffects
import Verif.Props.LightNetwork
import Verif.Props.LightReading
import Verif.Props.Lights
import Verif.Props.Linkie
import Verif.Props.Listing
import Verif.Props.Meter
import Verif.Props.Motion
import Verif.Props.Names
import Verif.Props.OnSince
import Verif.Props.Presets
import Verif.Props.QueryLock
import Verif.Props.ReadBack
import Verif.Props.Redact
import Verif.Props.RetryLoop
import Verif.Props.Rules
import Verif.Props.Sensors
import Verif.Props.Setters
import Verif.Props.Settings
import Verif.Props.SmartCamProtocol
import Verif.Props.SmartChildren
import Verif.Props.SmartDevice
import Verif.Props.SmartModule
import Verif.Props.SmartProtocol
import Verif.Props.SmartReadings
import Verif.Props.Speaker
import Verif.Props.Ssl
import Verif.Props.SslAes
import Verif.Props.SslEndToEnd
import Verif.Props.SslReliable
import Verif.Props.Stream
import Verif.Props.Strip
import Verif.Props.StripData
import Verif.Props.SysInfo
import Verif.Props.Thermostat
import Verif.Props.ThermostatModule
import Verif.Props.TimeZone
import Verif.Props.Vacuum
import Verif.Props.Xor
import Verif.Props.XorTransport
import Verif.Props.ZoneMatch
import Verif.Py.Bytes
import Verif.Py.Coroutine
import Verif.Py.Crypto
import Verif.Py.Dict
import Verif.Py.Heap
import Verif.Py.Json
import Verif.Py.Monad
import Verif.Py.Num
import Verif.Py.Ops
import Verif.Py.Text
import Verif.Spec.Aes
import Verif.Spec.AesEndToEnd
import Verif.Spec.Behaviours
import Verif.Spec.CamChild
import Verif.Spec.CamDevice
import Verif.Spec.CamEndToEnd
import Verif.Spec.CamNetwork
import Verif.Spec.CamReliable
import Verif.Spec.Camera
import Verif.Spec.ChildNetwork
import Verif.Spec.ChildProtocol
import Verif.Spec.ChildSetup
import Verif.Spec.Cli
import Verif.Spec.CliChild
import Verif.Spec.CliCommands
import Verif.Spec.CliDiscover
import Verif.Spec.CliGroups
import Verif.Spec.CliJson
import Verif.Spec.CliSearch
import Verif.Spec.Config
import Verif.Spec.Connect
import Verif.Spec.Deprecated
import Verif.Spec.DeviceInfo
import Verif.Spec.Discover
import Verif.Spec.DiscoverData
import Verif.Spec.DiscoverTasks
import Verif.Spec.Emeter
import Verif.Spec.EndToEnd
import Verif.Spec.ErrorCodes
import Verif.Spec.Factory
import Verif.Spec.Features
import Verif.Spec.Firmware
import Verif.Spec.HttpClient
import Verif.Spec.HttpSessions
import Verif.Spec.IotCloud
import Verif.Spec.IotDevice
import Verif.Spec.IotReadings
import Verif.Spec.IotSetup
import Verif.Spec.Klap
import Verif.Spec.LegacyEndToEnd
import Verif.Spec.LightEffects
import Verif.Spec.LightNetwork
import Verif.Spec.LightReading
import Verif.Spec.Lights
import Verif.Spec.Linkie
import Verif.Spec.Listing
import Verif.Spec.Meter
import Verif.Spec.Motion
import Verif.Spec.Names
import Verif.Spec.OnSince
import Verif.Spec.QueryLock
import Verif.Spec.ReadBack
import Verif.Spec.Redact
import Verif.Spec.RetryLoop
import Verif.Spec.Rules
import Verif.Spec.Sensors
import Verif.Spec.Settings
import Verif.Spec.SmartDevice
import Verif.Spec.SmartModule
import Verif.Spec.SmartProtocol
import Verif.Spec.SmartReadings
import Verif.Spec.Speaker
import Verif.Spec.Ssl
import Verif.Spec.SslAes
import Verif.Spec.SslEndToEnd
import Verif.Spec.Stream
import Verif.Spec.Strip
import Verif.Spec.SysInfo
import Verif.Spec.Thermostat
import Verif.Spec.ThermostatModule
import Verif.Spec.TimeZone
import Verif.Spec.Vacuum
import Verif.Spec.Xor
import Verif.Spec.ZoneMatch
