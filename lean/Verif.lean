import Verif.Props.Stream
import Verif.Props.Frame
import Verif.Props.Decode
import Verif.Props.MacCommands
import Verif.Props.UpCommands
import Verif.Props.Aes
import Verif.Props.Crypto
import Verif.Props.Region
import Verif.Props.AirTime
import Verif.Props.Operations
import Verif.Props.Power
import Verif.Props.Duty
import Verif.Props.Transmit
import Verif.Props.Uplink
import Verif.Props.Downlink
import Verif.Props.Commands
import Verif.Props.Answers
import Verif.Props.Standard
import Verif.Props.Restart
import Verif.Props.Join
import Verif.Props.Timers
import Verif.Props.Live
import Verif.Props.JoinBackoff
import Verif.Props.Session
import Verif.Props.ChannelList
import Verif.Props.JoinChannel
import Verif.Props.Adr
import Verif.Props.Mtu
import Verif.Props.Windows
import Verif.Props.Sx127x
import Verif.Props.Sx126x
import Verif.Props.Mbed
import Verif.Props.Burst
import Verif.Props.Spi
import Verif.Props.Repeat
import Verif.Props.Calibrate
import Verif.Props.Interrupt
import Verif.Props.Oscillator
import Verif.Props.Reentry
import Verif.Props.Dwell
import Verif.Props.Irq
import Verif.Props.Irq127
import Verif.Props.Reset
import Verif.Props.SecondWindow
import Verif.Props.Debug127
import Verif.Props.TraceLine
import Verif.Props.Errata
import Verif.Props.Conversation
import Verif.Props.Polling
import Verif.Props.NoSf12
import Verif.Props.Dither
import Verif.Props.WlSpi
import Verif.Props.ClassB
import Verif.Props.Stored
import Verif.Props.Ack
import Verif.Props.Fresh
import Verif.Props.Lifelong
import Verif.Props.Order
import Verif.Props.Delivered
