import Verif.Model.Types
/-!
# Generated from `src/data.rs` by `tools/gen_data.py`. Do not edit.
-/
namespace Boxcars

/-- `SPAWN_STATS`, `src/data.rs:3-18`. -/
def spawnStats : List (String × SpawnTrajectory) := [
  ("Engine.Actor", .location),
  ("Engine.ZoneInfo", .none),
  ("TAGame.BreakOutActor_Platform_TA", .none),
  ("TAGame.CrowdActor_TA", .none),
  ("TAGame.CrowdManager_TA", .none),
  ("TAGame.HauntedBallTrapTrigger_TA", .none),
  ("TAGame.InMapScoreboard_TA", .none),
  ("TAGame.PlayerStart_Platform_TA", .none),
  ("TAGame.RBActor_TA", .locationAndRotation),
  ("TAGame.VehiclePickup_Boost_TA", .none),
  ("TAGame.KeepUpIndicator_TA", .locationAndRotation)]

/-- `ATTRIBUTES`, `src/data.rs:21-321` (a `phf` map: keys are distinct). -/
def attributesTable : List (String × AttributeTag) := [
  ("Engine.Actor:bBlockActors", .boolean),
  ("Engine.Actor:bCollideActors", .boolean),
  ("Engine.Actor:bCollideWorld", .boolean),
  ("Engine.Actor:bHidden", .boolean),
  ("Engine.Actor:bNetOwner", .boolean),
  ("Engine.Actor:bTearOff", .boolean),
  ("Engine.Actor:DrawScale", .float),
  ("Engine.Actor:RemoteRole", .enum),
  ("Engine.Actor:Role", .enum),
  ("Engine.Actor:Rotation", .rotationTag),
  ("Engine.GameReplicationInfo:bMatchIsOver", .boolean),
  ("Engine.GameReplicationInfo:GameClass", .activeActor),
  ("Engine.GameReplicationInfo:ServerName", .string),
  ("Engine.Pawn:bFastAttachedMove", .boolean),
  ("Engine.Pawn:bIsCrouched", .boolean),
  ("Engine.Pawn:bUsedByMatinee", .boolean),
  ("Engine.Pawn:HealthMax", .int),
  ("Engine.Pawn:PlayerReplicationInfo", .activeActor),
  ("Engine.Pawn:RemoteViewPitch", .byte),
  ("Engine.PlayerReplicationInfo:bAdmin", .boolean),
  ("Engine.PlayerReplicationInfo:bBot", .boolean),
  ("Engine.PlayerReplicationInfo:bIsSpectator", .boolean),
  ("Engine.PlayerReplicationInfo:bReadyToPlay", .boolean),
  ("Engine.PlayerReplicationInfo:bTimedOut", .boolean),
  ("Engine.PlayerReplicationInfo:bWaitingPlayer", .boolean),
  ("Engine.PlayerReplicationInfo:Ping", .byte),
  ("Engine.PlayerReplicationInfo:PlayerID", .int),
  ("Engine.PlayerReplicationInfo:PlayerName", .string),
  ("Engine.PlayerReplicationInfo:RemoteUserData", .string),
  ("Engine.PlayerReplicationInfo:Score", .int),
  ("Engine.PlayerReplicationInfo:Team", .activeActor),
  ("Engine.PlayerReplicationInfo:UniqueId", .uniqueId),
  ("Engine.ReplicatedActor_ORS:ReplicatedOwner", .activeActor),
  ("Engine.TeamInfo:Score", .int),
  ("ProjectX.GRI_X:bGameStarted", .boolean),
  ("ProjectX.GRI_X:GameServerID", .qWordString),
  ("ProjectX.GRI_X:MatchGuid", .string),
  ("ProjectX.GRI_X:MatchGUID", .string),
  ("ProjectX.GRI_X:ReplicatedGameMutatorIndex", .int),
  ("ProjectX.GRI_X:ReplicatedGamePlaylist", .int),
  ("ProjectX.GRI_X:ReplicatedServerRegion", .string),
  ("ProjectX.GRI_X:Reservations", .reservation),
  ("TAGame.Ball_Breakout_TA:AppliedDamage", .appliedDamage),
  ("TAGame.Ball_Breakout_TA:DamageIndex", .int),
  ("TAGame.Ball_Breakout_TA:LastTeamTouch", .byte),
  ("TAGame.Ball_Fire_TA:TeamNumChangeTimestamp", .float),
  ("TAGame.Ball_God_TA:TargetSpeed", .float),
  ("TAGame.Ball_Haunted_TA:bIsBallBeamed", .boolean),
  ("TAGame.Ball_Haunted_TA:DeactivatedGoalIndex", .byte),
  ("TAGame.Ball_Haunted_TA:LastTeamTouch", .byte),
  ("TAGame.Ball_Haunted_TA:ReplicatedBeamBrokenValue", .byte),
  ("TAGame.Ball_Haunted_TA:TotalActiveBeams", .byte),
  ("TAGame.Ball_Spawner_TA:SpawnDelaySeconds", .float),
  ("TAGame.Ball_Spawner_TA:SpawnedBall", .activeActor),
  ("TAGame.Ball_TA:AdditionalCarGroundBounceScaleXY", .float),
  ("TAGame.Ball_TA:AdditionalCarGroundBounceScaleZ", .float),
  ("TAGame.Ball_TA:AirResistance", .location),
  ("TAGame.Ball_TA:BallHitSpinScale", .float),
  ("TAGame.Ball_TA:bPossessionEnabled", .boolean),
  ("TAGame.Ball_TA:bWarnBallReset", .boolean),
  ("TAGame.Ball_TA:GameBallIndex", .int),
  ("TAGame.Ball_TA:GameEvent", .activeActor),
  ("TAGame.Ball_TA:HitTeamNum", .byte),
  ("TAGame.Ball_TA:MagnusMinSpeed", .float),
  ("TAGame.Ball_TA:ReplicatedAddedCarBounceScale", .float),
  ("TAGame.Ball_TA:ReplicatedBallGravityScale", .float),
  ("TAGame.Ball_TA:ReplicatedBallMaxLinearSpeedScale", .float),
  ("TAGame.Ball_TA:ReplicatedBallScale", .float),
  ("TAGame.Ball_TA:ReplicatedExplosionData", .explosion),
  ("TAGame.Ball_TA:ReplicatedExplosionDataExtended", .extendedExplosion),
  ("TAGame.Ball_TA:ReplicatedPhysMatOverride", .activeActor),
  ("TAGame.Ball_TA:ReplicatedWorldBounceScale", .float),
  ("TAGame.BallKeepUpComponent_TA:BallOwner", .activeActor),
  ("TAGame.BallKeepUpComponent_TA:KeepUpState", .byte),
  ("TAGame.BallKeepUpComponent_TA:Score", .int),
  ("TAGame.BreakOutActor_Platform_TA:DamageState", .damageState),
  ("TAGame.CameraSettingsActor_TA:bMouseCameraToggleEnabled", .boolean),
  ("TAGame.CameraSettingsActor_TA:bUsingBehindView", .boolean),
  ("TAGame.CameraSettingsActor_TA:bUsingSecondaryCamera", .boolean),
  ("TAGame.CameraSettingsActor_TA:bUsingSwivel", .boolean),
  ("TAGame.CameraSettingsActor_TA:CameraPitch", .byte),
  ("TAGame.CameraSettingsActor_TA:CameraYaw", .byte),
  ("TAGame.CameraSettingsActor_TA:PRI", .activeActor),
  ("TAGame.CameraSettingsActor_TA:ProfileSettings", .camSettings),
  ("TAGame.Cannon_TA:FireCount", .byte),
  ("TAGame.Cannon_TA:Pitch", .float),
  ("TAGame.Car_KnockOut_TA:ReplicatedImpulse", .impulse),
  ("TAGame.Car_KnockOut_TA:ReplicatedStateChanged", .byte),
  ("TAGame.Car_KnockOut_TA:ReplicatedStateName", .int),
  ("TAGame.Car_KnockOut_TA:UsedAttackComponent", .activeActor),
  ("TAGame.Car_TA:AddedBallForceMultiplier", .float),
  ("TAGame.Car_TA:AddedCarForceMultiplier", .float),
  ("TAGame.Car_TA:AttachedPickup", .activeActor),
  ("TAGame.Car_TA:bUnlimitedJumps", .boolean),
  ("TAGame.Car_TA:bUnlimitedTimeForDodge", .boolean),
  ("TAGame.Car_TA:ClubColors", .clubColors),
  ("TAGame.Car_TA:DodgesRefreshedCounter", .int),
  ("TAGame.Car_TA:ReplicatedCarMaxLinearSpeedScale", .float),
  ("TAGame.Car_TA:ReplicatedCarScale", .float),
  ("TAGame.Car_TA:ReplicatedDemolish_CustomFX", .demolishFx),
  ("TAGame.Car_TA:ReplicatedDemolish", .demolish),
  ("TAGame.Car_TA:ReplicatedDemolishExtended", .demolishExtended),
  ("TAGame.Car_TA:ReplicatedDemolishGoalExplosion", .demolishFx),
  ("TAGame.Car_TA:RumblePickups", .activeActor),
  ("TAGame.Car_TA:TeamPaint", .teamPaint),
  ("TAGame.CarComponent_AirActivate_TA:AirActivateCount", .int),
  ("TAGame.CarComponent_Boost_TA:bNoBoost", .boolean),
  ("TAGame.CarComponent_Boost_TA:BoostModifier", .float),
  ("TAGame.CarComponent_Boost_TA:BoostRestriction", .byte),
  ("TAGame.CarComponent_Boost_TA:bRechargeGroundOnly", .boolean),
  ("TAGame.CarComponent_Boost_TA:bUnlimitedBoost", .boolean),
  ("TAGame.CarComponent_Boost_TA:RechargeDelay", .float),
  ("TAGame.CarComponent_Boost_TA:RechargeRate", .float),
  ("TAGame.CarComponent_Boost_TA:ReplicatedBoost", .replicatedBoost),
  ("TAGame.CarComponent_Boost_TA:ReplicatedBoostAmount", .byte),
  ("TAGame.CarComponent_Boost_TA:UnlimitedBoostRefCount", .int),
  ("TAGame.CarComponent_Dodge_KO_TA:DodgeRotationCompressed", .int),
  ("TAGame.CarComponent_Dodge_TA:DodgeImpulse", .location),
  ("TAGame.CarComponent_Dodge_TA:DodgeTorque", .location),
  ("TAGame.CarComponent_DoubleJump_TA:DoubleJumpImpulse", .location),
  ("TAGame.CarComponent_FlipCar_TA:bFlipRight", .boolean),
  ("TAGame.CarComponent_FlipCar_TA:FlipCarTime", .float),
  ("TAGame.CarComponent_TA:ReplicatedActive", .byte),
  ("TAGame.CarComponent_TA:ReplicatedActivityTime", .float),
  ("TAGame.CarComponent_TA:Vehicle", .activeActor),
  ("TAGame.CarComponent_Torque_TA:ReplicatedTorqueInput", .int),
  ("TAGame.CarComponent_Torque_TA:TorqueScale", .float),
  ("TAGame.CrowdActor_TA:GameEvent", .activeActor),
  ("TAGame.CrowdActor_TA:ModifiedNoise", .float),
  ("TAGame.CrowdActor_TA:ReplicatedCountDownNumber", .int),
  ("TAGame.CrowdActor_TA:ReplicatedOneShotSound", .activeActor),
  ("TAGame.CrowdActor_TA:ReplicatedRoundCountDownNumber", .int),
  ("TAGame.CrowdManager_TA:GameEvent", .activeActor),
  ("TAGame.CrowdManager_TA:ReplicatedGlobalOneShotSound", .activeActor),
  ("TAGame.GameEvent_Soccar_TA:bAllowHonorDuels", .boolean),
  ("TAGame.GameEvent_Soccar_TA:bBallHasBeenHit", .boolean),
  ("TAGame.GameEvent_Soccar_TA:bClubMatch", .boolean),
  ("TAGame.GameEvent_Soccar_TA:bDisableCrowdSound", .boolean),
  ("TAGame.GameEvent_Soccar_TA:bFullClubMatch", .boolean),
  ("TAGame.GameEvent_Soccar_TA:bFullMatchWinnerDecided", .boolean),
  ("TAGame.GameEvent_Soccar_TA:bGoalsEnabled", .boolean),
  ("TAGame.GameEvent_Soccar_TA:bMatchCreatorAdminEnabled", .boolean),
  ("TAGame.GameEvent_Soccar_TA:bMatchEnded", .boolean),
  ("TAGame.GameEvent_Soccar_TA:bNoContest", .boolean),
  ("TAGame.GameEvent_Soccar_TA:bOverTime", .boolean),
  ("TAGame.GameEvent_Soccar_TA:bReadyToStartGame", .boolean),
  ("TAGame.GameEvent_Soccar_TA:bShouldSpawnGoalIndicators", .boolean),
  ("TAGame.GameEvent_Soccar_TA:bShowIntroScene", .boolean),
  ("TAGame.GameEvent_Soccar_TA:bUnlimitedTime", .boolean),
  ("TAGame.GameEvent_Soccar_TA:GameTime", .int),
  ("TAGame.GameEvent_Soccar_TA:GameWinner", .activeActor),
  ("TAGame.GameEvent_Soccar_TA:MatchWinner", .activeActor),
  ("TAGame.GameEvent_Soccar_TA:MaxScore", .int),
  ("TAGame.GameEvent_Soccar_TA:MVP", .activeActor),
  ("TAGame.GameEvent_Soccar_TA:ReplicatedMusicStinger", .musicStinger),
  ("TAGame.GameEvent_Soccar_TA:ReplicatedScoredOnTeam", .byte),
  ("TAGame.GameEvent_Soccar_TA:ReplicatedServerPerformanceState", .byte),
  ("TAGame.GameEvent_Soccar_TA:ReplicatedStatEvent", .statEvent),
  ("TAGame.GameEvent_Soccar_TA:RoundNum", .int),
  ("TAGame.GameEvent_Soccar_TA:SecondsRemaining", .int),
  ("TAGame.GameEvent_Soccar_TA:SeriesLength", .int),
  ("TAGame.GameEvent_Soccar_TA:SubRulesArchetype", .activeActor),
  ("TAGame.GameEvent_Soccar_TA:TotalGameBalls", .int),
  ("TAGame.GameEvent_SoccarPrivate_TA:MatchSettings", .privateMatchSettings),
  ("TAGame.GameEvent_TA:bAllowReadyUp", .boolean),
  ("TAGame.GameEvent_TA:bAlwaysShowMatchTypeLabel", .boolean),
  ("TAGame.GameEvent_TA:bCanVoteToForfeit", .boolean),
  ("TAGame.GameEvent_TA:bHasLeaveMatchPenalty", .boolean),
  ("TAGame.GameEvent_TA:bIsBotMatch", .boolean),
  ("TAGame.GameEvent_TA:BotSkill", .int),
  ("TAGame.GameEvent_TA:GameMode", .gameMode),
  ("TAGame.GameEvent_TA:MatchStartEpoch", .int64),
  ("TAGame.GameEvent_TA:MatchTypeClass", .activeActor),
  ("TAGame.GameEvent_TA:ReplicatedGameStateTimeRemaining", .int),
  ("TAGame.GameEvent_TA:ReplicatedRoundCountDownNumber", .int),
  ("TAGame.GameEvent_TA:ReplicatedStateIndex", .byte),
  ("TAGame.GameEvent_TA:ReplicatedStateName", .int),
  ("TAGame.GameEvent_TA:RichPresenceString", .string),
  ("TAGame.GameEvent_Team_TA:bDisableMutingOtherTeam", .boolean),
  ("TAGame.GameEvent_Team_TA:bDisableQuickChat", .boolean),
  ("TAGame.GameEvent_Team_TA:bForfeit", .boolean),
  ("TAGame.GameEvent_Team_TA:MaxTeamSize", .int),
  ("TAGame.GRI_TA:bAllowTargetFind", .boolean),
  ("TAGame.GRI_TA:LanMatchGUID", .string),
  ("TAGame.GRI_TA:NewDedicatedServerIP", .string),
  ("TAGame.KeepUpIndicator_TA:ComponentOwner", .activeActor),
  ("TAGame.MaxTimeWarningData_TA:EndGameEpochTime", .int64),
  ("TAGame.MaxTimeWarningData_TA:EndGameWarningEpochTime", .int64),
  ("TAGame.PickupTimer_TA:MaxTimeTillItem", .int),
  ("TAGame.PickupTimer_TA:TimeTillItem", .int),
  ("TAGame.PlayerStart_Platform_TA:bActive", .boolean),
  ("TAGame.PRI_KnockOut_TA:bIsActiveMVP", .boolean),
  ("TAGame.PRI_KnockOut_TA:bIsEliminated", .boolean),
  ("TAGame.PRI_KnockOut_TA:Blocks", .int),
  ("TAGame.PRI_KnockOut_TA:DamageCaused", .int),
  ("TAGame.PRI_KnockOut_TA:EliminationOrder", .int),
  ("TAGame.PRI_KnockOut_TA:Grabs", .int),
  ("TAGame.PRI_KnockOut_TA:Hits", .int),
  ("TAGame.PRI_KnockOut_TA:KnockoutDeaths", .int),
  ("TAGame.PRI_KnockOut_TA:Knockouts", .int),
  ("TAGame.PRI_TA:AnonymizedName", .string),
  ("TAGame.PRI_TA:bAnonymizeToOpponents", .boolean),
  ("TAGame.PRI_TA:bAnonymizeToTeammates", .boolean),
  ("TAGame.PRI_TA:bIdleBanned", .boolean),
  ("TAGame.PRI_TA:bIsDistracted", .boolean),
  ("TAGame.PRI_TA:bIsInSplitScreen", .boolean),
  ("TAGame.PRI_TA:bMatchMVP", .boolean),
  ("TAGame.PRI_TA:bOnlineLoadoutSet", .boolean),
  ("TAGame.PRI_TA:bOnlineLoadoutsSet", .boolean),
  ("TAGame.PRI_TA:BotBannerProductID", .int),
  ("TAGame.PRI_TA:BotProductName", .int),
  ("TAGame.PRI_TA:bReady", .boolean),
  ("TAGame.PRI_TA:bReceivedAnonymizationSettings", .boolean),
  ("TAGame.PRI_TA:bUsingBehindView", .boolean),
  ("TAGame.PRI_TA:bUsingItems", .boolean),
  ("TAGame.PRI_TA:bUsingSecondaryCamera", .boolean),
  ("TAGame.PRI_TA:CameraPitch", .byte),
  ("TAGame.PRI_TA:CameraSettings", .camSettings),
  ("TAGame.PRI_TA:CameraYaw", .byte),
  ("TAGame.PRI_TA:CarDemolitions", .int),
  ("TAGame.PRI_TA:ClientLoadout", .loadout),
  ("TAGame.PRI_TA:ClientLoadoutOnline", .loadoutOnline),
  ("TAGame.PRI_TA:ClientLoadouts", .teamLoadout),
  ("TAGame.PRI_TA:ClientLoadoutsOnline", .loadoutsOnline),
  ("TAGame.PRI_TA:ClubID", .int64),
  ("TAGame.PRI_TA:CurrentVoiceRoom", .string),
  ("TAGame.PRI_TA:EpicPUID", .string),
  ("TAGame.PRI_TA:KeepUpPossessions", .int),
  ("TAGame.PRI_TA:MatchAssists", .int),
  ("TAGame.PRI_TA:MatchBreakoutDamage", .int),
  ("TAGame.PRI_TA:MatchDemolishes", .int),
  ("TAGame.PRI_TA:MatchGoals", .int),
  ("TAGame.PRI_TA:MatchSaves", .int),
  ("TAGame.PRI_TA:MatchScore", .int),
  ("TAGame.PRI_TA:MatchShots", .int),
  ("TAGame.PRI_TA:MaxTimeTillItem", .int),
  ("TAGame.PRI_TA:PartyLeader", .partyLeader),
  ("TAGame.PRI_TA:PawnType", .byte),
  ("TAGame.PRI_TA:PersistentCamera", .activeActor),
  ("TAGame.PRI_TA:PlayerHistoryKey", .playerHistoryKey),
  ("TAGame.PRI_TA:PlayerHistoryValid", .boolean),
  ("TAGame.PRI_TA:PossessionClears", .int),
  ("TAGame.PRI_TA:PossessionDenials", .int),
  ("TAGame.PRI_TA:PossessionSteals", .int),
  ("TAGame.PRI_TA:PrimaryTitle", .title),
  ("TAGame.PRI_TA:ReplicatedGameEvent", .activeActor),
  ("TAGame.PRI_TA:ReplicatedWorstNetQualityBeyondLatency", .byte),
  ("TAGame.PRI_TA:RepStatTitles", .repStatTitle),
  ("TAGame.PRI_TA:SecondaryTitle", .title),
  ("TAGame.PRI_TA:SelfDemolitions", .int),
  ("TAGame.PRI_TA:SkillTier", .flaggedByte),
  ("TAGame.PRI_TA:SpectatorShortcut", .int),
  ("TAGame.PRI_TA:SteeringSensitivity", .float),
  ("TAGame.PRI_TA:TimeTillItem", .int),
  ("TAGame.PRI_TA:Title", .int),
  ("TAGame.PRI_TA:TotalGameTimePlayed", .float),
  ("TAGame.PRI_TA:TotalIdleTime", .float),
  ("TAGame.PRI_TA:TotalXP", .int),
  ("TAGame.PRI_TA:ViralItemActor", .activeActor),
  ("TAGame.RBActor_TA:bFrozen", .boolean),
  ("TAGame.RBActor_TA:bIgnoreSyncing", .boolean),
  ("TAGame.RBActor_TA:bReplayActor", .boolean),
  ("TAGame.RBActor_TA:ReplicatedRBState", .rigidBody),
  ("TAGame.RBActor_TA:TeleportCounter", .byte),
  ("TAGame.RBActor_TA:WeldedInfo", .welded),
  ("TAGame.RumblePickups_TA:AttachedPickup", .activeActor),
  ("TAGame.RumblePickups_TA:ConcurrentItemCount", .int),
  ("TAGame.RumblePickups_TA:PickupInfo", .pickupInfo),
  ("TAGame.SpecialPickup_BallFreeze_TA:RepOrigSpeed", .float),
  ("TAGame.SpecialPickup_BallVelcro_TA:AttachTime", .float),
  ("TAGame.SpecialPickup_BallVelcro_TA:bBroken", .boolean),
  ("TAGame.SpecialPickup_BallVelcro_TA:bHit", .boolean),
  ("TAGame.SpecialPickup_BallVelcro_TA:BreakTime", .float),
  ("TAGame.SpecialPickup_Football_TA:WeldedBall", .activeActor),
  ("TAGame.SpecialPickup_Rugby_TA:bBallWelded", .boolean),
  ("TAGame.SpecialPickup_Targeted_TA:Targeted", .activeActor),
  ("TAGame.Stunlock_TA:Car", .activeActor),
  ("TAGame.Stunlock_TA:MashTime", .float),
  ("TAGame.Stunlock_TA:MaxStunTime", .float),
  ("TAGame.Stunlock_TA:StunTimeRemaining", .float),
  ("TAGame.Team_Soccar_TA:GameScore", .int),
  ("TAGame.Team_TA:ClubColors", .clubColors),
  ("TAGame.Team_TA:ClubID", .int64),
  ("TAGame.Team_TA:CustomTeamName", .string),
  ("TAGame.Team_TA:Difficulty", .int),
  ("TAGame.Team_TA:GameEvent", .activeActor),
  ("TAGame.Team_TA:LogoData", .logoData),
  ("TAGame.Vehicle_TA:bDriving", .boolean),
  ("TAGame.Vehicle_TA:bHasPostMatchCelebration", .boolean),
  ("TAGame.Vehicle_TA:bPodiumMode", .boolean),
  ("TAGame.Vehicle_TA:bReplicatedHandbrake", .boolean),
  ("TAGame.Vehicle_TA:InputRestriction", .byte),
  ("TAGame.Vehicle_TA:ReplicatedSteer", .byte),
  ("TAGame.Vehicle_TA:ReplicatedThrottle", .byte),
  ("TAGame.VehiclePickup_TA:bNoPickup", .boolean),
  ("TAGame.VehiclePickup_TA:NewReplicatedPickupData", .pickupNew),
  ("TAGame.VehiclePickup_TA:ReplicatedPickupData", .pickup),
  ("TAGame.ViralItemActor_TA:ClientFXInfectedType", .byte),
  ("TAGame.ViralItemActor_TA:InfectedStatus", .byte)]

/-- `PARENT_CLASSES`, `src/data.rs:324-610` (a `phf` map: keys are distinct). -/
def parentClasses : List (String × String) := [
  ("Archetypes.Ball.Ball_Anniversary", "TAGame.Ball_TA"),
  ("Archetypes.Ball.Ball_BasketBall_Mutator", "TAGame.Ball_TA"),
  ("Archetypes.Ball.Ball_Basketball", "TAGame.Ball_TA"),
  ("Archetypes.Ball.Ball_BasketBall", "TAGame.Ball_TA"),
  ("Archetypes.Ball.Ball_Beachball", "TAGame.Ball_TA"),
  ("Archetypes.Ball.Ball_Breakout", "TAGame.Ball_Breakout_TA"),
  ("Archetypes.Ball.Ball_Default", "TAGame.Ball_TA"),
  ("Archetypes.Ball.Ball_Ekin", "TAGame.Ball_TA"),
  ("Archetypes.Ball.Ball_Fire_Obstacle", "TAGame.Ball_Fire_TA"),
  ("Archetypes.Ball.Ball_Fire", "TAGame.Ball_Fire_TA"),
  ("Archetypes.Ball.Ball_Football", "TAGame.Ball_TA"),
  ("Archetypes.Ball.Ball_God", "TAGame.Ball_God_TA"),
  ("Archetypes.Ball.Ball_Haunted", "TAGame.Ball_Haunted_TA"),
  ("Archetypes.Ball.ball_luminousairplane", "TAGame.Ball_TA"),
  ("Archetypes.Ball.Ball_PizzaPuck", "TAGame.Ball_TA"),
  ("Archetypes.Ball.Ball_Puck", "TAGame.Ball_TA"),
  ("Archetypes.Ball.Ball_RingSpawner", "TAGame.Ball_Spawner_TA"),
  ("Archetypes.Ball.Ball_Score", "TAGame.Ball_Breakout_TA"),
  ("Archetypes.Ball.Ball_Shoe", "TAGame.Ball_TA"),
  ("Archetypes.Ball.Ball_SpookyBalloon", "TAGame.Ball_TA"),
  ("Archetypes.Ball.Ball_Strike", "TAGame.Ball_TA"),
  ("Archetypes.Ball.Ball_Training", "TAGame.Ball_Tutorial_TA"),
  ("Archetypes.Ball.Ball_Trajectory", "TAGame.Ball_Trajectory_TA"),
  ("Archetypes.Ball.Ball_Tutorial", "TAGame.Ball_Tutorial_TA"),
  ("Archetypes.Ball.Ball_WorldCup", "TAGame.Ball_TA"),
  ("Archetypes.Ball.BallComponent_KeepUp", "TAGame.BallKeepUpComponent_TA"),
  ("Archetypes.Ball.CubeBall", "TAGame.Ball_TA"),
  ("Archetypes.Car.Car_Default", "TAGame.Car_TA"),
  ("Archetypes.Car.Car_PostGameLobby", "TAGame.Car_Freeplay_TA"),
  ("Archetypes.CarComponents.CarComponent_Boost", "TAGame.CarComponent_Boost_TA"),
  ("Archetypes.CarComponents.CarComponent_Dodge", "TAGame.CarComponent_Dodge_TA"),
  ("Archetypes.CarComponents.CarComponent_DoubleJump", "TAGame.CarComponent_DoubleJump_TA"),
  ("Archetypes.CarComponents.CarComponent_FlipCar", "TAGame.CarComponent_FlipCar_TA"),
  ("Archetypes.CarComponents.CarComponent_Jump", "TAGame.CarComponent_Jump_TA"),
  ("Archetypes.CarComponents.CarComponent_TerritoryDemolish", "TAGame.CarComponent_TerritoryDemolish_TA"),
  ("Archetypes.GameEvent.GameEvent_Basketball", "TAGame.GameEvent_Soccar_TA"),
  ("Archetypes.GameEvent.GameEvent_BasketballPrivate", "TAGame.GameEvent_SoccarPrivate_TA"),
  ("Archetypes.GameEvent.GameEvent_BasketballSplitscreen", "TAGame.GameEvent_SoccarSplitscreen_TA"),
  ("Archetypes.GameEvent.GameEvent_Breakout", "TAGame.GameEvent_Breakout_TA"),
  ("Archetypes.GameEvent.GameEvent_FTE_Part1_Prime", "TAGame.GameEvent_FTE_TA"),
  ("Archetypes.GameEvent.GameEvent_Hockey", "TAGame.GameEvent_Soccar_TA"),
  ("Archetypes.GameEvent.GameEvent_HockeyPrivate", "TAGame.GameEvent_SoccarPrivate_TA"),
  ("Archetypes.GameEvent.GameEvent_HockeySplitscreen", "TAGame.GameEvent_SoccarSplitscreen_TA"),
  ("Archetypes.GameEvent.GameEvent_Items", "TAGame.GameEvent_Soccar_TA"),
  ("Archetypes.GameEvent.GameEvent_Season:CarArchetype", "TAGame.Car_Season_TA"),
  ("Archetypes.GameEvent.GameEvent_Season", "TAGame.GameEvent_Season_TA"),
  ("Archetypes.GameEvent.GameEvent_Soccar", "TAGame.GameEvent_Soccar_TA"),
  ("Archetypes.GameEvent.GameEvent_SoccarLan", "TAGame.GameEvent_Soccar_TA"),
  ("Archetypes.GameEvent.GameEvent_SoccarPrivate", "TAGame.GameEvent_SoccarPrivate_TA"),
  ("Archetypes.GameEvent.GameEvent_SoccarSplitscreen", "TAGame.GameEvent_SoccarSplitscreen_TA"),
  ("Archetypes.GameEvent.GameEvent_Tutorial_Advanced", "TAGame.GameEvent_Tutorial_Advanced_TA"),
  ("Archetypes.GameEvent.GameEvent_Tutorial_Basic", "TAGame.GameEvent_Tutorial_Basic_TA"),
  ("Archetypes.GameEvent.GameEvent_Tutorial_FreePlay", "TAGame.GameEvent_Tutorial_FreePlay_TA"),
  ("Archetypes.KnockOut.GameEvent_Knockout:CarArchetype.Boost", "TAGame.CarComponent_Boost_KO_TA"),
  ("Archetypes.KnockOut.GameEvent_Knockout:CarArchetype.Dodge", "TAGame.CarComponent_Dodge_KO_TA"),
  ("Archetypes.KnockOut.GameEvent_Knockout:CarArchetype.DoubleJump", "TAGame.CarComponent_DoubleJump_TA"),
  ("Archetypes.KnockOut.GameEvent_Knockout:CarArchetype.Flip", "TAGame.CarComponent_FlipCar_TA"),
  ("Archetypes.KnockOut.GameEvent_Knockout:CarArchetype.Jump", "TAGame.CarComponent_Jump_TA"),
  ("Archetypes.KnockOut.GameEvent_Knockout:CarArchetype.StunlockArchetype", "TAGame.Stunlock_TA"),
  ("Archetypes.KnockOut.GameEvent_Knockout:CarArchetype.Torque", "TAGame.CarComponent_Torque_TA"),
  ("Archetypes.KnockOut.GameEvent_Knockout:CarArchetype", "TAGame.Car_KnockOut_TA"),
  ("Archetypes.KnockOut.GameEvent_Knockout", "TAGame.GameEvent_KnockOut_TA"),
  ("Archetypes.Misc.KeepUpIndicator", "TAGame.KeepUpIndicator_TA"),
  ("Archetypes.Mutators.Mutator_Robin:AutoFlip", "TAGame.CarComponent_FlipCar_TA"),
  ("Archetypes.Mutators.Mutator_Robin:DoubleJump", "TAGame.CarComponent_DoubleJump_Robin_TA"),
  ("Archetypes.Mutators.Mutator_Robin:Jump", "TAGame.CarComponent_Jump_Robin_TA"),
  ("Archetypes.Mutators.SubRules.ItemsMode_RPS:DispenserArchetype.ItemPool.Obj_1", "TAGame.SpecialPickup_BallCarSpring_TA"),
  ("Archetypes.Mutators.SubRules.ItemsMode_RPS:DispenserArchetype.ItemPool.Obj_2", "TAGame.SpecialPickup_BallFreeze_TA"),
  ("Archetypes.Mutators.SubRules.ItemsMode_RPS:DispenserArchetype.ItemPool.Obj", "TAGame.SpecialPickup_BallCarSpring_TA"),
  ("Archetypes.SpecialPickups.BM.SpecialPickup_BallFreeze_BM", "TAGame.SpecialPickup_BallFreeze_TA"),
  ("Archetypes.SpecialPickups.SpecialPickup_BallFreeze", "TAGame.SpecialPickup_BallFreeze_TA"),
  ("Archetypes.SpecialPickups.SpecialPickup_BallGrapplingHook", "TAGame.SpecialPickup_GrapplingHook_TA"),
  ("Archetypes.SpecialPickups.SpecialPickup_BallLasso", "TAGame.SpecialPickup_BallLasso_TA"),
  ("Archetypes.SpecialPickups.SpecialPickup_BallSpring", "TAGame.SpecialPickup_BallCarSpring_TA"),
  ("Archetypes.SpecialPickups.SpecialPickup_BallVelcro", "TAGame.SpecialPickup_BallVelcro_TA"),
  ("Archetypes.SpecialPickups.SpecialPickup_Batarang", "TAGame.SpecialPickup_Batarang_TA"),
  ("Archetypes.SpecialPickups.SpecialPickup_BoostOverride", "TAGame.SpecialPickup_BoostOverride_TA"),
  ("Archetypes.SpecialPickups.SpecialPickup_CarSpring", "TAGame.SpecialPickup_BallCarSpring_TA"),
  ("Archetypes.SpecialPickups.SpecialPickup_Football", "TAGame.SpecialPickup_Football_TA"),
  ("Archetypes.SpecialPickups.SpecialPickup_GravityWell", "TAGame.SpecialPickup_BallGravity_TA"),
  ("Archetypes.SpecialPickups.SpecialPickup_HauntedBallBeam", "TAGame.SpecialPickup_HauntedBallBeam_TA"),
  ("Archetypes.SpecialPickups.SpecialPickup_Rugby", "TAGame.SpecialPickup_Rugby_TA"),
  ("Archetypes.SpecialPickups.SpecialPickup_RugbyLightDark", "TAGame.SpecialPickup_Rugby_TA"),
  ("Archetypes.SpecialPickups.SpecialPickup_StrongHit", "TAGame.SpecialPickup_HitForce_TA"),
  ("Archetypes.SpecialPickups.SpecialPickup_Swapper", "TAGame.SpecialPickup_Swapper_TA"),
  ("Archetypes.SpecialPickups.SpecialPickup_Tornado", "TAGame.SpecialPickup_Tornado_TA"),
  ("Archetypes.Teams.Team0", "TAGame.Team_Soccar_TA"),
  ("Archetypes.Teams.Team1", "TAGame.Team_Soccar_TA"),
  ("Archetypes.Teams.TeamWhite0", "TAGame.Team_Freeplay_TA"),
  ("Archetypes.Teams.TeamWhite1", "TAGame.Team_Freeplay_TA"),
  ("Archetypes.Tutorial.Cannon", "TAGame.Cannon_TA"),
  ("Engine.Actor", "Core.Object"),
  ("Engine.GameReplicationInfo", "Engine.ReplicationInfo"),
  ("Engine.Info", "Engine.Actor"),
  ("Engine.NavigationPoint", "Engine.Actor"),
  ("Engine.Pawn", "Engine.Actor"),
  ("Engine.PlayerReplicationInfo", "Engine.ReplicationInfo"),
  ("Engine.PlayerStart", "Engine.NavigationPoint"),
  ("Engine.ReplicatedActor_ORS", "Engine.Actor"),
  ("Engine.ReplicationInfo", "Engine.Info"),
  ("Engine.TeamInfo", "Engine.Info"),
  ("Engine.WorldInfo", "Engine.ZoneInfo"),
  ("Engine.ZoneInfo", "Engine.Info"),
  ("GameInfo_Basketball.GameInfo.GameInfo_Basketball:Archetype", "TAGame.GameEvent_Soccar_TA"),
  ("GameInfo_Basketball.GameInfo.GameInfo_Basketball:GameReplicationInfoArchetype", "TAGame.GRI_TA"),
  ("GameInfo_Breakout.GameInfo.GameInfo_Breakout:GameReplicationInfoArchetype", "TAGame.GRI_TA"),
  ("GameInfo_FootBall.GameInfo.GameInfo_FootBall:Archetype", "TAGame.GameEvent_Football_TA"),
  ("GameInfo_FootBall.GameInfo.GameInfo_FootBall:GameReplicationInfoArchetype", "TAGame.GRI_TA"),
  ("GameInfo_FTE.GameInfo.GameInfo_FTE:GameReplicationInfoArchetype", "TAGame.GRI_TA"),
  ("gameinfo_godball.GameInfo.gameinfo_godball:Archetype", "TAGame.GameEvent_GodBall_TA"),
  ("GameInfo_GodBall.GameInfo.GameInfo_GodBall:Archetype", "TAGame.GameEvent_GodBall_TA"),
  ("gameinfo_godball.GameInfo.gameinfo_godball:GameReplicationInfoArchetype", "TAGame.GRI_TA"),
  ("GameInfo_GodBall.GameInfo.GameInfo_GodBall:GameReplicationInfoArchetype", "TAGame.GRI_TA"),
  ("GameInfo_HeatseekerTerritory.GameInfo.GameInfo_HeatseekerTerritory:Archetype", "TAGame.GameEvent_Soccar_TA"),
  ("GameInfo_HeatseekerTerritory.GameInfo.GameInfo_HeatseekerTerritory:GameReplicationInfoArchetype", "TAGame.GRI_TA"),
  ("Gameinfo_Hockey.GameInfo.Gameinfo_Hockey:Archetype", "TAGame.GameEvent_Soccar_TA"),
  ("Gameinfo_Hockey.GameInfo.Gameinfo_Hockey:GameReplicationInfoArchetype", "TAGame.GRI_TA"),
  ("GameInfo_Hops.GameInfo.GameInfo_Hops:Archetype", "TAGame.GameEvent_Soccar_TA"),
  ("GameInfo_Hops.GameInfo.GameInfo_Hops:GameReplicationInfoArchetype", "TAGame.GRI_TA"),
  ("GameInfo_Items.GameInfo.GameInfo_Items:GameReplicationInfoArchetype", "TAGame.GRI_TA"),
  ("GameInfo_KnockOut.KnockOut.GameInfo_KnockOut:GameReplicationInfoArchetype", "TAGame.GRI_TA"),
  ("GameInfo_LTM_AprilFool.GameInfo.GameInfo_LTM_AprilFool:Archetype", "TAGame.GameEvent_Soccar_TA"),
  ("GameInfo_LTM_AprilFool.GameInfo.GameInfo_LTM_AprilFool:GameReplicationInfoArchetype", "TAGame.GRI_TA"),
  ("GameInfo_LTM_BeachBall.GameInfo.GameInfo_LTM_BeachBall:Archetype", "TAGame.GameEvent_Soccar_TA"),
  ("GameInfo_LTM_BeachBall.GameInfo.GameInfo_LTM_BeachBall:GameReplicationInfoArchetype", "TAGame.GRI_TA"),
  ("GameInfo_LTM_DropshotRumble.GameInfo.GameInfo_LTM_DropshotRumble:Archetype", "TAGame.GameEvent_Soccar_TA"),
  ("GameInfo_LTM_DropshotRumble.GameInfo.GameInfo_LTM_DropshotRumble:GameReplicationInfoArchetype", "TAGame.GRI_TA"),
  ("GameInfo_LTM_SpeedDemon.GameInfo.GameInfo_LTM_SpeedDemon:Archetype", "TAGame.GameEvent_Soccar_TA"),
  ("GameInfo_LTM_SpeedDemon.GameInfo.GameInfo_LTM_SpeedDemon:GameReplicationInfoArchetype", "TAGame.GRI_TA"),
  ("GameInfo_LTM_SpikeRush.GameInfo.GameInfo_LTM_SpikeRush:Archetype", "TAGame.GameEvent_Soccar_TA"),
  ("GameInfo_LTM_SpikeRush.GameInfo.GameInfo_LTM_SpikeRush:GameReplicationInfoArchetype", "TAGame.GRI_TA"),
  ("GameInfo_LTM_SuperCube.GameInfo.GameInfo_LTM_SuperCube:Archetype", "TAGame.GameEvent_Soccar_TA"),
  ("GameInfo_LTM_SuperCube.GameInfo.GameInfo_LTM_SuperCube:GameReplicationInfoArchetype", "TAGame.GRI_TA"),
  ("GameInfo_MagnusFutball.GameInfo.GameInfo_MagnusFutball:Archetype", "TAGame.GameEvent_Soccar_TA"),
  ("GameInfo_MagnusFutball.GameInfo.GameInfo_MagnusFutball:GameReplicationInfoArchetype", "TAGame.GRI_TA"),
  ("GameInfo_Possession.GameInfo.GameInfo_Possession:Archetype", "TAGame.GameEvent_Soccar_TA"),
  ("GameInfo_Possession.GameInfo.GameInfo_Possession:GameReplicationInfoArchetype", "TAGame.GRI_TA"),
  ("GameInfo_Season.GameInfo.GameInfo_Season:GameReplicationInfoArchetype", "TAGame.GRI_TA"),
  ("GameInfo_SnowDayTerritory.GameInfo.GameInfo_SnowDayTerritory:Archetype", "TAGame.GameEvent_Territory_TA"),
  ("GameInfo_SnowDayTerritory.GameInfo.GameInfo_SnowDayTerritory:GameReplicationInfoArchetype", "TAGame.GRI_TA"),
  ("GameInfo_Soccar.GameInfo.GameInfo_Soccar:GameReplicationInfoArchetype", "TAGame.GRI_TA"),
  ("GameInfo_SpikeDrop.GameInfo.GameInfo_SpikeDrop:Archetype", "TAGame.GameEvent_Soccar_TA"),
  ("GameInfo_SpikeDrop.GameInfo.GameInfo_SpikeDrop:GameReplicationInfoArchetype", "TAGame.GRI_TA"),
  ("GameInfo_Territory.GameInfo.GameInfo_Territory:Archetype", "TAGame.GameEvent_Territory_TA"),
  ("GameInfo_Territory.GameInfo.GameInfo_Territory:GameReplicationInfoArchetype", "TAGame.GRI_TA"),
  ("GameInfo_Tutorial.GameEvent.GameEvent_Tutorial_Aerial", "TAGame.GameEvent_Training_Aerial_TA"),
  ("GameInfo_Tutorial.GameEvent.GameEvent_Tutorial_Goalie", "TAGame.GameEvent_Training_Goalie_TA"),
  ("GameInfo_Tutorial.GameEvent.GameEvent_Tutorial_Striker", "TAGame.GameEvent_Training_Striker_TA"),
  ("GameInfo_Tutorial.GameInfo.GameInfo_Tutorial:GameReplicationInfoArchetype", "TAGame.GRI_TA"),
  ("Haunted_TrainStation_P.TheWorld:PersistentLevel.HauntedBallTrapTrigger_TA_0", "TAGame.HauntedBallTrapTrigger_TA"),
  ("Haunted_TrainStation_P.TheWorld:PersistentLevel.HauntedBallTrapTrigger_TA_1", "TAGame.HauntedBallTrapTrigger_TA"),
  ("Mutators.Mutators.Mutators.FreePlay:CarArchetype", "TAGame.Car_Freeplay_TA"),
  ("Mutators.Mutators.Mutators.OnlineFreeplay:CarArchetype", "TAGame.Car_Freeplay_TA"),
  ("ProjectX.Default__NetModeReplicator_X", "ProjectX.NetModeReplicator_X"),
  ("ProjectX.GRI_X", "Engine.GameReplicationInfo"),
  ("ProjectX.NetModeReplicator_X", "Engine.ReplicationInfo"),
  ("ProjectX.Pawn_X", "Engine.Pawn"),
  ("ProjectX.PRI_X", "Engine.PlayerReplicationInfo"),
  ("TAGame.Ball_Breakout_TA", "TAGame.Ball_TA"),
  ("TAGame.Ball_Fire_TA", "TAGame.Ball_God_TA"),
  ("TAGame.Ball_God_TA", "TAGame.Ball_TA"),
  ("TAGame.Ball_Haunted_TA", "TAGame.Ball_TA"),
  ("TAGame.Ball_Spawner_TA", "Engine.Actor"),
  ("TAGame.Ball_TA", "TAGame.RBActor_TA"),
  ("TAGame.Ball_Trajectory_TA", "TAGame.Ball_TA"),
  ("TAGame.Ball_Tutorial_TA", "TAGame.Ball_TA"),
  ("TAGame.BallKeepUpComponent_TA", "Engine.ReplicatedActor_ORS"),
  ("TAGame.BreakOutActor_Platform_TA", "Engine.Actor"),
  ("TAGame.CameraSettingsActor_TA", "Engine.ReplicationInfo"),
  ("TAGame.Cannon_TA", "Engine.Actor"),
  ("TAGame.Car_Freeplay_TA", "TAGame.Car_TA"),
  ("TAGame.Car_KnockOut_TA", "TAGame.Car_TA"),
  ("TAGame.Car_Season_TA", "TAGame.Car_TA"),
  ("TAGame.Car_TA", "TAGame.Vehicle_TA"),
  ("TAGame.CarComponent_AirActivate_TA", "TAGame.CarComponent_TA"),
  ("TAGame.CarComponent_Boost_KO_TA", "TAGame.CarComponent_Boost_TA"),
  ("TAGame.CarComponent_Boost_TA", "TAGame.CarComponent_AirActivate_TA"),
  ("TAGame.CarComponent_Dodge_KO_TA", "TAGame.CarComponent_Dodge_TA"),
  ("TAGame.CarComponent_Dodge_TA", "TAGame.CarComponent_AirActivate_TA"),
  ("TAGame.CarComponent_DoubleJump_KO_TA", "TAGame.CarComponent_DoubleJump_TA"),
  ("TAGame.CarComponent_DoubleJump_Robin_TA", "TAGame.CarComponent_DoubleJump_TA"),
  ("TAGame.CarComponent_DoubleJump_TA", "TAGame.CarComponent_AirActivate_TA"),
  ("TAGame.CarComponent_FlipCar_TA", "TAGame.CarComponent_TA"),
  ("TAGame.CarComponent_Jump_Robin_TA", "TAGame.CarComponent_Jump_TA"),
  ("TAGame.CarComponent_Jump_TA", "TAGame.CarComponent_TA"),
  ("TAGame.CarComponent_TA", "Engine.ReplicationInfo"),
  ("TAGame.CarComponent_TerritoryDemolish_TA", "TAGame.CarComponent_TA"),
  ("TAGame.CarComponent_Torque_TA", "TAGame.CarComponent_TA"),
  ("TAGame.CrowdActor_TA", "Engine.ReplicationInfo"),
  ("TAGame.CrowdManager_TA", "Engine.ReplicationInfo"),
  ("TAGame.Default__CameraSettingsActor_TA", "TAGame.CameraSettingsActor_TA"),
  ("TAGame.Default__Car_TA", "TAGame.Car_TA"),
  ("TAGame.Default__FreeplayCommands_TA", "TAGame.FreeplayCommands_TA"),
  ("TAGame.Default__MaxTimeWarningData_TA", "TAGame.MaxTimeWarningData_TA"),
  ("TAGame.Default__PickupTimer_TA", "TAGame.PickupTimer_TA"),
  ("TAGame.Default__PRI_Breakout_TA", "TAGame.PRI_Breakout_TA"),
  ("TAGame.Default__PRI_KnockOut_TA", "TAGame.PRI_KnockOut_TA"),
  ("TAGame.Default__PRI_Possession_TA", "TAGame.PRI_Possession_TA"),
  ("TAGame.Default__PRI_TA", "TAGame.PRI_TA"),
  ("TAGame.Default__RumblePickups_TA", "TAGame.RumblePickups_TA"),
  ("TAGame.Default__TrackerWallDynamicMeshActor_TA", "TAGame.TrackerWallDynamicMeshActor_TA"),
  ("TAGame.Default__ViralItemActor_TA", "TAGame.ViralItemActor_TA"),
  ("TAGame.Default__VoteActor_TA", "TAGame.VoteActor_TA"),
  ("TAGame.DynamicMeshActor_TA", "Engine.Actor"),
  ("TAGame.FreeplayCommands_TA", "Engine.Actor"),
  ("TAGame.GameEvent_Breakout_TA", "TAGame.GameEvent_Soccar_TA"),
  ("TAGame.GameEvent_Football_TA", "TAGame.GameEvent_Soccar_TA"),
  ("TAGame.GameEvent_FTE_TA", "TAGame.GameEvent_Soccar_TA"),
  ("TAGame.GameEvent_GodBall_TA", "TAGame.GameEvent_Soccar_TA"),
  ("TAGame.GameEvent_KnockOut_TA", "TAGame.GameEvent_Soccar_TA"),
  ("TAGame.GameEvent_Season_TA", "TAGame.GameEvent_Soccar_TA"),
  ("TAGame.GameEvent_Soccar_TA", "TAGame.GameEvent_Team_TA"),
  ("TAGame.GameEvent_SoccarPrivate_TA", "TAGame.GameEvent_Soccar_TA"),
  ("TAGame.GameEvent_SoccarSplitscreen_TA", "TAGame.GameEvent_SoccarPrivate_TA"),
  ("TAGame.GameEvent_TA", "Engine.ReplicationInfo"),
  ("TAGame.GameEvent_Team_TA", "TAGame.GameEvent_TA"),
  ("TAGame.GameEvent_Territory_TA", "TAGame.GameEvent_Soccar_TA"),
  ("TAGame.GameEvent_Training_Aerial_TA", "TAGame.GameEvent_Training_TA"),
  ("TAGame.GameEvent_Training_Goalie_TA", "TAGame.GameEvent_Training_TA"),
  ("TAGame.GameEvent_Training_Striker_TA", "TAGame.GameEvent_Training_TA"),
  ("TAGame.GameEvent_Training_TA", "TAGame.GameEvent_Tutorial_TA"),
  ("TAGame.GameEvent_Tutorial_Advanced_TA", "TAGame.GameEvent_Tutorial_Basic_TA"),
  ("TAGame.GameEvent_Tutorial_Basic_TA", "TAGame.GameEvent_Tutorial_TA"),
  ("TAGame.GameEvent_Tutorial_FreePlay_TA", "TAGame.GameEvent_Tutorial_TA"),
  ("TAGame.GameEvent_Tutorial_TA", "TAGame.GameEvent_Soccar_TA"),
  ("TAGame.GRI_TA", "ProjectX.GRI_X"),
  ("TAGame.HauntedBallTrapTrigger_TA", "TAGame.DynamicMeshActor_TA"),
  ("TAGame.InMapScoreboard_TA", "Engine.Actor"),
  ("TAGame.KeepUpIndicator_TA", "Engine.Actor"),
  ("TAGame.MaxTimeWarningData_TA", "Engine.ReplicatedActor_ORS"),
  ("TAGame.PickupTimer_TA", "TAGame.CarComponent_TA"),
  ("TAGame.PlayerStart_Platform_TA", "Engine.Actor"),
  ("TAGame.PRI_Breakout_TA", "TAGame.PRI_TA"),
  ("TAGame.PRI_KnockOut_TA", "TAGame.PRI_TA"),
  ("TAGame.PRI_Possession_TA", "TAGame.PRI_TA"),
  ("TAGame.PRI_TA", "ProjectX.PRI_X"),
  ("TAGame.ProductAttribute_Blueprint_TA", "TAGame.ProductAttribute_TA"),
  ("TAGame.ProductAttribute_BlueprintCost_TA", "TAGame.ProductAttribute_TA"),
  ("TAGame.ProductAttribute_Certified_TA", "TAGame.ProductAttribute_TA"),
  ("TAGame.ProductAttribute_NoNotify_TA", "TAGame.ProductAttribute_TA"),
  ("TAGame.ProductAttribute_Painted_TA", "TAGame.ProductAttribute_TA"),
  ("TAGame.ProductAttribute_Quality_TA", "TAGame.ProductAttribute_TA"),
  ("TAGame.ProductAttribute_SpecialEdition_TA", "TAGame.ProductAttribute_TA"),
  ("TAGame.ProductAttribute_TA", "Core.Object"),
  ("TAGame.ProductAttribute_TeamEdition_TA", "TAGame.ProductAttribute_TA"),
  ("TAGame.ProductAttribute_TitleID_TA", "TAGame.ProductAttribute_TA"),
  ("TAGame.ProductAttribute_UserColor_TA", "TAGame.ProductAttribute_TA"),
  ("TAGame.RBActor_TA", "ProjectX.Pawn_X"),
  ("TAGame.Replay_Soccar_TA", "TAGame.Replay_TA"),
  ("TAGame.Replay_TA", "Core.Object"),
  ("TAGame.RumblePickups_TA", "Engine.Actor"),
  ("TAGame.SaveData_GameEditor_Training_TA", "Core.Object"),
  ("TAGame.SpecialPickup_BallCarSpring_TA", "TAGame.SpecialPickup_Spring_TA"),
  ("TAGame.SpecialPickup_BallFreeze_TA", "TAGame.SpecialPickup_Targeted_TA"),
  ("TAGame.SpecialPickup_BallGravity_TA", "TAGame.SpecialPickup_TA"),
  ("TAGame.SpecialPickup_BallLasso_TA", "TAGame.SpecialPickup_Spring_TA"),
  ("TAGame.SpecialPickup_BallVelcro_TA", "TAGame.SpecialPickup_TA"),
  ("TAGame.SpecialPickup_Batarang_TA", "TAGame.SpecialPickup_BallLasso_TA"),
  ("TAGame.SpecialPickup_BoostOverride_TA", "TAGame.SpecialPickup_Targeted_TA"),
  ("TAGame.SpecialPickup_Football_TA", "TAGame.SpecialPickup_TA"),
  ("TAGame.SpecialPickup_GrapplingHook_TA", "TAGame.SpecialPickup_Targeted_TA"),
  ("TAGame.SpecialPickup_HauntedBallBeam_TA", "TAGame.SpecialPickup_BallGravity_TA"),
  ("TAGame.SpecialPickup_HitForce_TA", "TAGame.SpecialPickup_TA"),
  ("TAGame.SpecialPickup_Rugby_TA", "TAGame.SpecialPickup_TA"),
  ("TAGame.SpecialPickup_Spring_TA", "TAGame.SpecialPickup_Targeted_TA"),
  ("TAGame.SpecialPickup_Swapper_TA", "TAGame.SpecialPickup_Targeted_TA"),
  ("TAGame.SpecialPickup_TA", "TAGame.CarComponent_TA"),
  ("TAGame.SpecialPickup_Targeted_TA", "TAGame.SpecialPickup_TA"),
  ("TAGame.SpecialPickup_Tornado_TA", "TAGame.SpecialPickup_TA"),
  ("TAGame.Stunlock_TA", "Engine.Actor"),
  ("TAGame.Team_Freeplay_TA", "TAGame.Team_Soccar_TA"),
  ("TAGame.Team_Soccar_TA", "TAGame.Team_TA"),
  ("TAGame.Team_TA", "Engine.TeamInfo"),
  ("TAGame.TrackerWallDynamicMeshActor_TA", "TAGame.DynamicMeshActor_TA"),
  ("TAGame.TrainingEditorData_TA", "Core.Object"),
  ("TAGame.Vehicle_TA", "TAGame.RBActor_TA"),
  ("TAGame.VehiclePickup_Boost_TA", "TAGame.VehiclePickup_TA"),
  ("TAGame.VehiclePickup_TA", "Engine.ReplicationInfo"),
  ("TAGame.ViralItemActor_TA", "Engine.Actor"),
  ("TheWorld:PersistentLevel.BreakOutActor_Platform_TA", "TAGame.BreakOutActor_Platform_TA"),
  ("TheWorld:PersistentLevel.CrowdActor_TA", "TAGame.CrowdActor_TA"),
  ("TheWorld:PersistentLevel.CrowdManager_TA", "TAGame.CrowdManager_TA"),
  ("TheWorld:PersistentLevel.InMapScoreboard_TA", "TAGame.InMapScoreboard_TA"),
  ("TheWorld:PersistentLevel.PlayerStart_Platform_TA", "TAGame.PlayerStart_Platform_TA"),
  ("TheWorld:PersistentLevel.VehiclePickup_Boost_TA", "TAGame.VehiclePickup_Boost_TA")]

/-- `ATTRIBUTES.get(name)`. -/
def attributeTag (name : Str) : Option AttributeTag := attributesTable.lookup (String.ofList name)

/-- `PARENT_CLASSES.get(name)`. -/
def parentClass (name : Str) : Option Str :=
  (parentClasses.lookup (String.ofList name)).map String.toList

end Boxcars
