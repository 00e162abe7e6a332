import Verif.Model.Repr
import Verif.Model.Resolve

/-!
Names of parameters and of the type of their values (src/avb/misc.py:519-532, src/avb/parameter_uuids.py), and
the media kind of a track (src/avb/trackgroups.py:47-50).
-/

namespace Avb.Params

/-- `PARAMETER_UUIDS` (src/avb/parameter_uuids.py:2-738), in the order of the file, in parts. -/
def table0 : List (String × String) := [
  ("0082b859-87f0-426d-85de-ff14e5c9080b", "Blue"),
  ("0089d496-bcbd-4fe5-91dc-d22f9c68214d", "Num HSLRangeHLT"),
  ("008ab896-9505-4dcc-974f-2bed88c40224", "Sec Wedge In Sat4"),
  ("00e66930-3804-4c78-a69a-9c2fbf994e01", "AvidCh1DivergenceFront"),
  ("0103e0c3-673a-4d68-a7f4-780c2960e10c", "Offset Mas Bypass Src"),
  ("016edd14-cc9e-4bbd-91f7-670f2e5d2515", "Mas Setup"),
  ("02435b33-0a97-466a-86dc-0eaf9570b807", "Modification Date Src"),
  ("024dec42-0502-443f-b01d-2072afffe645", "Display Label"),
  ("03121914-9f25-4d40-80f9-54b894b6a036", "Offset Mas Hue"),
  ("035a61cd-ab06-4844-b644-577a1242283e", "Hilite"),
  ("044afc62-b8e9-4476-a732-68b10f08e1ca", "Offset Mid Bypass Src"),
  ("05811735-f9e9-4ee9-8495-ba975c0aed8e", "Green"),
  ("06bcbf29-79a9-42ec-bdd6-ba81e2f907d8", "AFX_SPATIAL_FRAMING_POSY_NUM"),
  ("071f3b3a-4ddd-46a8-a39f-1ab87fcc4437", "Red"),
  ("087d9dfe-dfda-4725-bb3b-23373636e249", "Curves Red"),
  ("09997779-960e-11d3-a04e-006094eb75cb", "AvidGlobalKeyFrame"),
  ("0aa39532-3255-4e74-a991-95fe17600e07", "Blue"),
  ("0adba400-0bb6-43f3-a435-adb44045bab3", "Opacity"),
  ("0ca9ffed-6f98-4b67-9b77-87fb8ebb96dd", "Z Rotation"),
  ("0d2cee66-8d12-4c3f-9687-3606e33bfc91", "Local Frame Count"),
  ("0dfe4801-1733-46af-ab2f-24a17171ad60", "Green"),
  ("0e741bd5-69ab-40b8-879b-2b3d927077e6", "Mas Hue"),
  ("0eb6fae7-091f-412d-9e5f-c6b2c53e5af6", "Offset Bypass"),
  ("0ec6f41b-1a7d-33d3-959c-a3c94a62ecdf", "AFX_YCKEY_COLORB"),
  ("0ee90784-8b39-4860-a284-436c6c554165", "Hlt Saturation"),
  ("101cfd8f-dfce-11d3-9ff3-0004ac969f50", "AvidEQFilterName"),
  ("105874f7-208d-4b64-9b37-f5422042bdfe", "HSL Setup Bypass Src"),
  ("1083ad10-8be7-4119-8694-ac6e5a850d9f", "Curves Red Bypass"),
  ("10aaa449-6d30-4524-af8b-58a5755c560f", "Source Track"),
  ("1116495d-e1c1-4d25-a9bc-12769cd55120", "Ignore Hours"),
  ("1157f37e-fcc7-4c9b-9560-31bc536da216", "Sec Wedge Out Sat0"),
  ("11a216dc-1b5c-42ac-8cdf-1e9595cb6978", "Kerning"),
  ("12dc68e8-f876-415c-9ff2-3c58fd581019", "Softness"),
  ("139a5ebf-3e8f-3b04-bf20-63541784f9c8", "AFX_YCKEY_PEAKALPHA"),
  ("139ee662-7f3a-4821-9ca1-06d0d85870e1", "Alignment Horizontal"),
  ("13b6b8be-73ea-4f4d-9cf8-49b78b8c6494", "Synchronize Parameters from private data host"),
  ("13f475bb-5d0e-478f-b807-5bbfc0af4b2c", "Use Text Outline"),
  ("141bb38d-e797-457b-a467-59759ad63590", "Size"),
  ("146bcb8e-f3e6-41ff-901b-fef4eff2cc54", "Vertical  Scale"),
  ("1497c7da-f611-3f44-ac45-8a27dce6562b", "AFX_YCKEY_BYPASS"),
  ("14f8dd14-eef6-4a57-bd7d-ab461d46c413", "Sec Wedge In HueWidth4"),
  ("15880ea3-efde-4e96-8eab-915c953f5825", "AvidCh2PositionFrontRear"),
  ("15a98ac2-784c-3db1-b047-e0eb2ed20185", "AFX_YCKEY_COLORG"),
  ("162a09b5-85cf-48c4-b6be-4406bb52dc87", "Luma Clip Lo"),
  ("1736065f-0529-40dd-8a75-a13e5c5117b0", "Mid Saturation"),
  ("17448885-58c4-3410-a491-499f97679239", "Y"),
  ("17fd9b2c-26b4-4ad3-a8fe-5eb6507531fa", "Sec Wedge In Hue"),
  ("180dd040-f144-4327-8ed4-917c56cc0ef8", "Display Label"),
  ("18389ab3-9d5d-4ae4-a1d7-07ef961b77a4", "Source Track")]

/-- `PARAMETER_UUIDS` (src/avb/parameter_uuids.py:52-100). -/
def table1 : List (String × String) := [
  ("18b82c6a-743f-4bcb-ba72-885e99358978", "AFX_SPATIAL_VALID_WID_NUM"),
  ("19443b8e-3fb9-4fa3-8775-12cf342b51fb", "Horizontal Scale"),
  ("1ad61f93-ba6e-47d9-8633-05f83ae4bd19", "Use Text Outline"),
  ("1b8006a3-e3c6-11d3-9ff3-0004ac969f50", "AvidEQFilterEnabled"),
  ("1c5a02d5-e503-4ca6-8617-d7914bb8ac03", "AvidMotionInputFormat"),
  ("1cba9fff-62fa-44dd-89aa-e76fe4378c0f", "Horizontal Origin"),
  ("1cc50d0c-44bf-4460-8850-17eed33bf5cf", "Horizontal Position"),
  ("1ec7bbcf-fd1b-442f-89d1-c752ab1a02eb", "Secondary Bypass Src"),
  ("1f99097e-13b8-4ae8-98fd-c3512850edff", "AFX_ORIG_CROP_TOP"),
  ("1f9e4b9b-3d36-45f1-9834-c84c4a6114e9", "Horizontal Position"),
  ("1fb966ff-b327-40a3-8ce7-0966517380d8", "Red"),
  ("1fdd2907-e48c-11d3-a078-006094eb75cb", "AvidGraphicFXAttr"),
  ("2134ad76-4b77-472f-a718-8169c05f3aa6", "Scale Fixed Aspect"),
  ("213ad6a0-3e87-42a0-a547-36236bd3b0ce", "Type"),
  ("21739be5-026e-4316-a04f-2b30b8ab0dfe", "Character Rotation"),
  ("21b4bd95-17b6-4f0b-b9be-5ed1b5b12c12", "Num Master Curve Keys"),
  ("223698ab-4f20-47a1-956c-da6d96472a35", "Horizontal Position"),
  ("2283451d-c839-4b74-ae0b-4cfb7f5b2aaf", "Text Box Text"),
  ("22c4a1d5-3038-4a97-8e03-d0fa7a64cad3", "AFX_SPATIAL_FRAMING_POSY_DEN"),
  ("23101d3f-2a3b-452f-8928-c6b18d2c585f", "PrivateDataXML"),
  ("239ccfd1-ce49-40c3-ac29-ec7f1d63173f", "Offset Hlt Hue Src"),
  ("23b91f70-a42b-461a-9e51-4a934acc1298", "Opacity"),
  ("248ce8bb-780e-4e9c-b145-81b2a4484f3f", "Font Size"),
  ("26a83cfa-1e4c-4287-ac87-914705c076bf", "Opacity"),
  ("26c19190-7c0a-4315-857c-4cc1f7273f52", "Font Size"),
  ("26f0b321-f9ef-43ee-b073-07a75fee912b", "Blue"),
  ("2726936a-f80c-4932-923c-fcf3ec572065", "Green"),
  ("27a3aa5f-82da-4937-8cd9-225e06a3e87d", "AvidCh1PositionRear"),
  ("27ce7bec-07f6-4ef0-a47c-af9e8437bbef", "Sec Wedge In Soft0"),
  ("283f92b7-d0df-4641-9768-bb9bfe8c653e", "AFX_SPATIAL_VALID_WID_DEN"),
  ("2848905f-7730-49a9-a16f-34ce3cbe3721", "HSL Setup Master Bypass"),
  ("28abc67d-f9cf-32df-838c-c6740d0b8da8", "AFX_YCKEY_OFFSET"),
  ("28cac1c0-6f96-4811-91fd-8b4810495016", "Red"),
  ("290b1aa6-faa5-3c57-a328-95e66d77e0fd", "AFX_YCKEY_HUEANGLE"),
  ("296caabb-1702-4d11-a374-1e32cd6c340d", "Mas Sat"),
  ("299f11d2-20bf-45f3-a8f8-c50b37b3e452", "Channels Bypass"),
  ("2a80d089-f541-40a0-9ef5-bcd201e550ce", "AFX_SPATIAL_CUSTOM_ASPECT"),
  ("2a8c1d97-990a-475f-9a16-73bddf4f07a9", "AFX_SPATIAL_SOURCE_POSX_NUM"),
  ("2aca02a9-f017-4b09-b68f-7af6a91e4944", "Mid Brightness"),
  ("2ba2f85a-61d7-478c-b1ae-e5c31f1d24bf", "Vertical Position"),
  ("2bac71cd-34d1-4ceb-94b4-655e40ce9071", "Local Frame Count"),
  ("2c779fe1-c2c9-434d-9a40-00ef4c874da5", "Green"),
  ("2ca723ee-61a5-4f1b-a794-e23bc658f2a3", "Mid Gamma"),
  ("2dbd24c4-5494-4c1e-a9d7-1e3ac4c07d03", "HSL Setup Hlt Bypass"),
  ("2e393032-f666-4661-860a-d48db0c5a471", "Sec Wedge Vec4 Bypass"),
  ("2ed24193-e2d5-404e-8bc0-3054516334ca", "Vertical Size"),
  ("2edae95f-56dc-43a8-9333-e3b6e4c84487", "Reader"),
  ("300865f0-99e0-4706-8949-7078ddb8bdf8", "Source Track"),
  ("305a91ee-db40-4084-832c-80d2a9c3d92e", "Offset Mas Bypass")]

/-- `PARAMETER_UUIDS` (src/avb/parameter_uuids.py:101-149). -/
def table2 : List (String × String) := [
  ("30625eb0-361d-4b1d-b545-54b91954e73f", "Justification Horizontal"),
  ("312db8ed-a40f-42f4-b57b-df89f720a324", "Mas Gamma"),
  ("316640b7-dfaa-4739-a2d3-ef64b49ade40", "Hlt Brightness"),
  ("3180a3f2-9517-435a-acf0-0e97181cd1ac", "Vertical Size"),
  ("3245b687-e723-470c-93f5-8ace1b8158c2", "Blue"),
  ("327c3b78-a486-4048-9a40-112cb8d6c092", "HSL Setup Shd Bypass"),
  ("338a2f41-ee1e-11d3-9ff5-0004ac969f50", "AvidASPIChunks"),
  ("33950f51-7b5e-45cd-9d62-bd392abb6194", "AFX_SPATIAL_ESSENCE_POSY_NUM"),
  ("34a02f3c-d0c2-4b6c-ab04-d505f5d4e9b5", "Tracker"),
  ("362ff27f-507e-4a22-bc2c-154b4d93c45b", "AvidCh1DivergenceFrontRear"),
  ("3657f1ba-fa88-459c-a65e-cf20ee6a1a09", "Levels Bypass"),
  ("3658d325-6f0f-4401-8abe-b83e361c59c7", "Softness"),
  ("366746d2-1934-43ce-966f-217e2c4130a9", "Font Size"),
  ("367b1c28-08f9-4282-8cba-6e03949dd964", "Add Ellipse"),
  ("3718d79e-a090-43cf-9881-f0993c04640f", "Red"),
  ("37930c95-6284-49a0-afcf-f6a45bbbb815", "Reader"),
  ("37aec4b8-d57c-4c3f-9ff0-827ac37a05de", "Leading"),
  ("385ce8da-d2ff-49f9-981f-be8d10eb6f93", "Bold"),
  ("386e92f8-978e-11d3-80e1-006008143e6f", "AvidSelectedKeyFrame"),
  ("3906d29e-4f5d-4efe-8979-64fbcf67ce15", "AFX_SPATIAL_FRAMING_WID_NUM"),
  ("39f3a3bb-9a66-46c5-9764-f6d041ea6135", "Tracker"),
  ("3af5331c-fb93-4b15-b243-4dbcde225e29", "Composite L"),
  ("3b3b5d06-1984-4f06-8c19-aa62a1e7616d", "Relationship Type Src"),
  ("3defdebd-ff5a-457d-8d88-aaddad19cfeb", "Offset Shd Bypass Src"),
  ("3e2b2e4b-4047-341c-9ee7-a085e4fffada", "AFX_YCKEY_LUMALUT"),
  ("3f13b13f-a883-497f-b5c1-88f247caaf11", "Unknown name"),
  ("3f93cea8-c8f5-4a27-8fb6-90ee865c7cd5", "Horizontal Scale"),
  ("3fea93fb-98bc-4258-b458-0d9256079739", "AFX_SPATIAL_FRAMING_ASPECT"),
  ("400281bb-4bef-481b-9347-31e4e539c3e8", "AFX_SPATIAL_FRAMING_REFORMAT"),
  ("40674b25-ecee-4f00-b035-fa3582568756", "Num Red Curve Keys"),
  ("415abfe3-0b96-48ec-b1d5-4166137ce196", "Hlt Gamma"),
  ("4171f122-39c4-4d96-bdee-c10decdaa640", "Vertical Origin"),
  ("42401321-789e-477a-a43c-db24333a5990", "Luma L"),
  ("4253f368-8195-4242-2b17-32259c00375e", "Hide Anchor Point"),
  ("43907fd5-080f-4b68-848a-b5b1a3be22b9", "AFX_SPATIAL_SOURCE_POSX_DEN"),
  ("44560d49-c41b-3504-a820-f35fd5abea5c", "X"),
  ("445f9f4f-5d5b-420e-a767-1c1c7ac13da7", "AFX_SPATIAL_VALID_HEI_DEN"),
  ("448f63a6-5106-4372-a710-a8f60f3caa30", "Display Fields"),
  ("45312ed2-a1b8-11d3-a05a-006094eb75cb", "AvidEnableKeyFlagsKeyFrame"),
  ("4578519e-3ec0-4e6b-aeae-fd0d862d112f", "Justification Vertical"),
  ("460386b2-33ee-4d5b-9cff-e5b712a3f2b0", "Curves Green Bypass"),
  ("46d247ee-b7fc-4c25-8ae6-e54ccfd89c8f", "Connect to safe title"),
  ("47073652-2744-422c-826a-6de4f8364360", "Red"),
  ("47c00f7d-fb55-11d3-9ff7-0004ac969f50", "AvidControlClipRatio"),
  ("47c00f7e-fb55-11d3-9ff7-0004ac969f50", "AvidParamClipDouble"),
  ("484f9a96-686d-440e-9360-990be1936e1d", "Modification Date"),
  ("4855ebd2-21bb-4842-bc39-aa153dec3400", "HV Skew"),
  ("4856d427-23ef-4437-bed2-e829977f1561", "AFX_ORIG_CROP_RIGHT"),
  ("48862d37-b0d0-4f3c-a063-9ffe4aab01d8", "Vergence")]

/-- `PARAMETER_UUIDS` (src/avb/parameter_uuids.py:150-198). -/
def table3 : List (String × String) := [
  ("48eec481-4822-4530-a731-8b818ecb7d25", "Text Box Text"),
  ("49764c04-5779-4c7d-e6f9-9e1c38c2ecac", "Vertical Position"),
  ("4a5d4d48-b690-4e06-a989-b4b886a5f9ac", "Red"),
  ("4aeb74b1-a1b5-418f-b9f6-643374574b1e", "Opacity"),
  ("4b0a03c1-e5ac-451c-b1f4-5bc02105e48f", "Width"),
  ("4b2e5f65-2688-4e65-9dc6-d0bec9d7357e", "Blue"),
  ("4b376234-ee7c-4cef-b0bb-f03e30ac3f08", "Offset Shd Amount"),
  ("4b4db99b-d39b-4d1f-b5b3-194ac59099f8", "Vertical Position"),
  ("4b6ab71e-34a3-4c24-8530-6693e2f8a2eb", "Relationship Type"),
  ("4b93e432-d9cf-4bc7-ab42-f3d9abed704c", "Line Weight"),
  ("4c149019-0062-4ee3-b1cd-7e174f6e97d8", "Use Text Outline"),
  ("4d55c481-a36e-4dff-b71c-7c2eb5cdc4e2", "Vertical  Scale"),
  ("4d7d3e39-223e-471f-a1b7-ddfc575d7117", "HSL Range Hlt Bypass"),
  ("4db21e70-41a2-4fa9-8725-3c40f2d7e991", "AvidCh2DivergenceRear"),
  ("4e537fd4-2af8-4ca5-a7a0-7482c38d74a2", "Vertical Position"),
  ("4ea2a9ca-7abb-4e72-9365-2e3b9f4bd991", "Effect LayersL"),
  ("4eacaaf3-47d2-43b6-8b18-67e62113d952", "Horizontal Scale"),
  ("4ed7ed6e-a42e-300f-83e2-0d4fe78fc076", "Y"),
  ("4fcfb16c-c6ad-4d0e-82c9-efb72c1f701e", "Mas Brt"),
  ("50289690-7bba-4273-80f9-10a0fb2ba6b2", "HSL Setup Mid Bypass"),
  ("506b066b-dab6-4906-b864-1fca8ac78f59", "Vertical Position"),
  ("508db2f8-04c4-4e83-96db-db1a1204c201", "Mid Contrast"),
  ("5093fb01-4169-4dcc-a968-0f17c6986365", "Blue"),
  ("50fe9f55-db11-48c9-b46e-39ff7348f65e", "AFX_SPATIAL_ESSENCE_HEI_NUM"),
  ("51a65b03-1c1b-4cfb-93eb-b65af4e883bf", "Vertical Position"),
  ("52141c72-8b98-4d85-a78a-74cca6eb57a6", "Luma Clip Bypass"),
  ("52eb847f-b891-4472-9b99-deef2720bb9d", "Sec Wedge In HueWidth0"),
  ("530d27f7-84bc-42ab-ab07-ee8cbc841d11", "Green"),
  ("532225eb-454c-41cc-af0b-d0ce21878f40", "AFX_SPATIAL_ESSENCE_POSX_DEN"),
  ("535e2aa6-1ca7-4357-9d93-a80c571e1a98", "AFX_SPATIAL_VALID_POSX_DEN"),
  ("538172d0-dd77-4061-b25d-a0be5f1930af", "Mas Sat Src"),
  ("53be6e00-de63-4ff5-a629-ea5704490eed", "Green"),
  ("542d8b06-c646-4527-a67c-1a5223f0ca0b", "Red"),
  ("54b75f44-200e-477f-8579-5130eb4a7f58", "Red"),
  ("54d16c08-d1ff-410e-805e-a4421d983597", "Red"),
  ("54f14f63-cd3e-4a76-a497-a41b5e306656", "Font Name"),
  ("5529e192-59a2-49a1-a009-24163879cacf", "Offset Hlt Bypass"),
  ("553ea4c8-4cab-4870-b99c-9438b5da82c0", "Width Percentage"),
  ("55b23bba-e339-44a9-9ea1-87616a6945a2", "Z Rotation"),
  ("55d2feb8-8c38-4979-bac8-5e76ea62cc3b", "Vertical Offset"),
  ("55ef92a3-7988-4f3b-95b6-1f88964bdb34", "Sec Wedge Vec0 Bypass"),
  ("5815de42-c84e-3866-867f-e5564a77fe64", "Y"),
  ("58c351fd-e77c-4695-bfae-a13ed6e424d9", "AFX_SPATIAL_SOURCE_POSY_DEN"),
  ("58daae36-5523-49cb-b4f2-26b1bb6720c8", "Local Frame Count"),
  ("58daee8c-469b-3e58-8953-87e90363f4d4", "AFX_YCKEY_SPILLANGLE"),
  ("59a31133-bd72-4908-8307-d87a1dfe0eea", "Auto-Zoom"),
  ("59e6f7c6-abbd-45f4-97d2-71661827638b", "Green"),
  ("5a1cebc5-f7e5-4a19-90d4-952a44e4551f", "Ignore Hours"),
  ("5b22ff71-c51b-11d3-a069-006094eb75cb", "AvidPhase")]

/-- `PARAMETER_UUIDS` (src/avb/parameter_uuids.py:199-247). -/
def table4 : List (String × String) := [
  ("5c166fa3-461f-4ceb-b3a2-a1d2ffe6beb7", "Green"),
  ("5c477d5d-89cf-4cbf-b59a-881b110364c1", "Add Text"),
  ("5cfa5403-c144-45b6-b0c3-bbd89426b604", "Effect State"),
  ("5d8fc3a6-5305-4912-a0a9-c44c134cd4fa", "Curves Bypass"),
  ("5e1a4611-ba26-43a9-a223-34eb095df41e", "Mas Contrast"),
  ("5f2127ad-c7a7-11d3-a069-006094eb75cb", "AvidStrobe"),
  ("5ff50344-344c-4e8e-90bc-a56558d907bc", "Mas Gain"),
  ("600981af-a9f9-36b5-b356-9c4207292685", "AFX_YCKEY_ALPHASOFT"),
  ("628416ae-d67b-42c1-a22b-07644ef578c9", "Color Gradient"),
  ("62e88677-030c-4a96-899a-d6402faf3190", "Composite H"),
  ("63e1560b-41e1-44d7-90e5-ac2115a3a004", "Luma Units"),
  ("63e2294b-8cf2-4503-b974-678e88e3d0a2", "Horizontal Position"),
  ("65156de8-e7e8-442b-b429-5abeb331e967", "AFX_SPATIAL_ESSENCE_HEI_DEN"),
  ("6522e859-2b70-4005-adee-27d0785c11d9", "Offset Mas Hue Src"),
  ("65858bdc-8b8b-421d-954e-4d1060ba94ab", "AFX_SPATIAL_FRAMING_ENABLED"),
  ("659ebd59-f267-42fb-8f23-4f07a6d3ef61", "Color Gradient"),
  ("664682c9-bca1-45b4-809e-7fe4409f79d9", "Green"),
  ("666c91ff-389a-4a20-86e6-c7ae9d761b60", "Opacity"),
  ("67a853e8-0e6a-41a0-ac0d-b49c4cff3100", "Horizontal Origin"),
  ("680f52a5-125f-4bfc-8c11-3727770be96c", "Red"),
  ("685a2d02-87bb-4068-ac5b-79c9ef4bb025", "Mas Brt Src"),
  ("69fdf04d-611d-4a34-923f-021f7278f2c0", "Descenders"),
  ("6a2772b2-0db3-4f7f-aead-f58a1e27c7db", "Mid Setup"),
  ("6aac2758-bd13-4052-8ec6-b620a6d0ce6b", "Luma H"),
  ("6bc872e8-961f-4289-ec56-8dea598e7c0c", "Hide Anchor Point"),
  ("6bd7fbe4-6c96-4ab4-8ac8-f436d08fe7bb", "Shape"),
  ("6ceb01c1-9a9b-471d-b469-551286b9e0b5", "Channels Bypass Src"),
  ("6d2d5d54-22ec-4713-8661-dd2bab48f558", "Horizontal Position"),
  ("6d84031a-fa06-446d-9e2e-8773f12f49e1", "AFX_SPATIAL_VALID_POSY_NUM"),
  ("6e11f541-98ff-40f8-8ea8-d52a9d211833", "HSL Setup Master Bypass Src"),
  ("6ebd1697-6bad-43d1-9fcf-37418d3e51ff", "Secondary Isolate"),
  ("6f73e518-78bf-4bc9-9ff3-5c924c4628e1", "Vertical Position"),
  ("6faee466-15a0-43fc-bc5b-917e8ee2ef86", "Horizontal Offset"),
  ("7022f0f7-69e0-4f65-9e71-808f3ffbb3a0", "Horizontal Size"),
  ("713a9f6c-6dcf-4114-85af-c64dfb1b3320", "AFX_SPATIAL_REFORMAT"),
  ("72559a80-24d7-11d3-8a50-0050040ef7d2", "SpeedRatio"),
  ("72837b7f-b5ca-4479-9ef8-6dfc10c32ebd", "Blue"),
  ("732f3ce2-8cff-41fe-ae5a-0ec86338a933", "Vertical  Scale"),
  ("741340f1-26d0-40e2-be9b-c293a6f8a830", "Curves Bypass Src"),
  ("747a57c7-1bed-4506-969d-ac936ee9dfcf", "Offset Shd Hue Src"),
  ("759b6f78-73a8-4cd7-8b11-8605860b6b9a", "Horizontal Position"),
  ("759f6cfc-29ae-41b0-b88b-3f4193457e03", "Opacity"),
  ("760264de-f952-4525-9d3f-a4397080cb38", "AFX_ORIG_CROP_LEFT"),
  ("76401b7f-ee1e-11d3-9ff5-0004ac969f50", "AvidASPIPlugInName"),
  ("76ba6d2a-ad38-46e9-b7ea-7314f10b67a4", "Distance"),
  ("77613354-0d24-4cdd-8f65-edc9d176d662", "Type"),
  ("77a14c3d-f74b-41f6-bd8b-d7bbc18b8a39", "Red"),
  ("7900ba08-e97e-4773-8bc8-b7c0412fa3ab", "AFX_SPATIAL_SOURCE_WID_DEN"),
  ("79367e91-ed69-4881-a085-b0b448db0f42", "Opacity")]

/-- `PARAMETER_UUIDS` (src/avb/parameter_uuids.py:248-296). -/
def table5 : List (String × String) := [
  ("7a4e47fe-5f8b-4d70-a9d0-ed59e106e2c8", "Horizontal Origin"),
  ("7c254c09-ee1e-11d3-9ff5-0004ac969f50", "AudioASPIManufacturerID"),
  ("7c51fa4a-da82-414b-b3d4-48d1cc9a314f", "Connect to safe title"),
  ("7db249d7-3670-47bb-b027-31b0a477c966", "Film Type"),
  ("7e1228ad-066f-42f5-90ea-da79e4dd4529", "Invert Luma"),
  ("7e7c180f-c5b7-4aad-9764-05b2ca5072af", "Green"),
  ("7e85279d-afab-4b0a-a286-6c4cf81eb53a", "PrivateData"),
  ("7ea6c8d9-501f-4833-8c0f-3264d3f8263b", "Curves Blue Bypass"),
  ("7fa2b160-1d1d-4681-a6f2-e8109fce0a01", "AFX_SPATIAL_SOURCE_WID_NUM"),
  ("80332d81-ca77-4730-bea8-a8c60e9b7feb", "Text Box Text"),
  ("80bcd031-eefa-11d3-9ff5-0004ac969f50", "AudioASPIPlugInChunkDataID"),
  ("812c723d-418c-4888-9a5e-5015600c6e9d", "AFX_SPATIAL_FRAMING_WID_CLIP"),
  ("8134fc48-3bd6-4904-9520-7a6360cc7127", "Curve Type"),
  ("817a8931-4965-46f8-867f-ef52de9fe2da", "Reader"),
  ("81ad80dd-ee1e-11d3-9ff5-0004ac969f50", "AudioASPIProductID"),
  ("81ae2ba3-7ddc-41bf-bb21-512d538d1f1f", "AvidCh1FrontCenterPercent"),
  ("81bd6e95-7c67-4bbb-a63a-6805f0a1b15e", "HLS Range HLT"),
  ("83d3a4fc-b246-47a4-91fc-2b4e470fcaed", "Sec Wedge In Soft4"),
  ("83fd6e55-201c-48ca-95e6-5599b7010a61", "Offset Mid Hue Src"),
  ("84159810-a552-4a0f-854e-4b53dd8a7630", "AFX_SPATIAL_FRAMING_HEI_NUM"),
  ("84605907-d091-47c6-9d8c-84f9704ced62", "Type"),
  ("8519d4b2-2a8b-4942-a411-37429808e3cd", "AFX_SPATIAL_FRAMING_HEI_DEN"),
  ("858eef3f-1666-3026-8087-6db89d1145a5", "AFX_YCKEY_SUPPRESSSHADOW"),
  ("85ffc3fd-ee1e-11d3-9ff5-0004ac969f50", "AudioASPIPlugInID"),
  ("86323fe4-0eb7-4406-993c-cc6ffd3043c8", "Opacity"),
  ("869f2e71-64d8-447a-bfac-84e3f73c1a7e", "Opacity"),
  ("86c54bfe-310d-4a14-afed-28b3e85d998c", "Blue"),
  ("87a94f5e-469a-48d5-81b1-c3f7b137c067", "Green"),
  ("8876e073-1db0-46b5-6534-f1fab5bacfca", "Horizontal Position"),
  ("8a3ba356-d275-4e25-96ca-2042c4482e65", "Red"),
  ("8adb91e2-bdfc-421c-9809-669245960754", "Include Spaces"),
  ("8af7a5dc-367b-4919-afc7-5ca00a5bd558", "MC AVX2 EFFECT VERSION"),
  ("8aff0d08-3cf8-417e-a06b-bf989126711f", "Blue"),
  ("8b759339-5fe5-451c-a30e-22b176d8920a", "Size"),
  ("8b8b2819-ca95-4532-bb43-5a052206879c", "Sec Wedge Out Hue4"),
  ("8ba0916a-7c0b-41e4-b2da-c817048cbf5d", "AFX_TRANS_LEN"),
  ("8bc42735-6bab-11d3-80cf-006008143e6f", "AvidBorderWidth"),
  ("8bc42736-6bab-11d3-80cf-006008143e6f", "AvidBorderSoft"),
  ("8bc42737-6bab-11d3-80cf-006008143e6f", "AvidXPos"),
  ("8bc42738-6bab-11d3-80cf-006008143e6f", "AvidYPos"),
  ("8bc42739-6bab-11d3-80cf-006008143e6f", "AvidCrop"),
  ("8bc4273a-6bab-11d3-80cf-006008143e6f", "AvidScale"),
  ("8bc4273b-6bab-11d3-80cf-006008143e6f", "AvidSpillSupress"),
  ("8bc4273c-6bab-11d3-80cf-006008143e6f", "AvidBounds"),
  ("8bc4273d-6bab-11d3-80cf-006008143e6f", "AvidColor"),
  ("8bc4273e-6bab-11d3-80cf-006008143e6f", "AvidUserParam"),
  ("8be56740-3380-44a7-a2c8-dfe58ad5b9e2", "Horizontal Size"),
  ("8c28315a-d4bd-482f-9570-85e32de20b48", "Scale Fixed Aspect"),
  ("8cb647ca-80f6-4b7f-a205-72eef277d20d", "Connect to safe title")]

/-- `PARAMETER_UUIDS` (src/avb/parameter_uuids.py:297-345). -/
def table6 : List (String × String) := [
  ("8cc4ae71-7aaf-4be6-aece-a8bb9d3d5ee8", "Angle"),
  ("8d568125-847e-11d5-935a-50f857c10000", "AFX_POS_X_U"),
  ("8d568126-847e-11d5-935a-50f857c10000", "AFX_POS_Y_U"),
  ("8d568129-847e-11d5-935a-50f857c10000", "AFX_SCALE_X_U"),
  ("8d56812a-847e-11d5-935a-50f857c10000", "AFX_SCALE_Y_U"),
  ("8d56812b-847e-11d5-935a-50f857c10000", "AFX_FIXED_ASPECT_U"),
  ("8d56812e-847e-11d5-935a-50f857c10000", "AFX_CROP_LEFT_U"),
  ("8d56812f-847e-11d5-935a-50f857c10000", "AFX_CROP_RIGHT_U"),
  ("8d568130-847e-11d5-935a-50f857c10000", "AFX_CROP_TOP_U"),
  ("8d568131-847e-11d5-935a-50f857c10000", "AFX_CROP_BOTTOM_U"),
  ("8d568133-847e-11d5-935a-50f857c10000", "AFX_BORDER_WIDTH_U"),
  ("8d568134-847e-11d5-935a-50f857c10000", "AFX_BORDER_SOFT_U"),
  ("8d568135-847e-11d5-935a-50f857c10000", "AFX_BORDER_H_U"),
  ("8d568136-847e-11d5-935a-50f857c10000", "AFX_BORDER_S_U"),
  ("8d568137-847e-11d5-935a-50f857c10000", "AFX_BORDER_L_U"),
  ("8d568138-847e-11d5-935a-50f857c10000", "AFX_BORDER_BLEND_H_U"),
  ("8d568139-847e-11d5-935a-50f857c10000", "AFX_BORDER_BLEND_S_U"),
  ("8d56813a-847e-11d5-935a-50f857c10000", "AFX_BORDER_BLEND_L_U"),
  ("8d56813d-847e-11d5-935a-50f857c10000", "AFX_FG_KEY_OPACITY_U"),
  ("8d56813e-847e-11d5-935a-50f857c10000", "AFX_FG_KEY_SWAP_SOURCES_U"),
  ("8d56813f-847e-11d5-935a-50f857c10000", "AFX_FG_KEY_INVERT_U"),
  ("8d568140-847e-11d5-935a-50f857c10000", "AFX_FG_KEY_SHOW_ALPHA_U"),
  ("8d568142-847e-11d5-935a-50f857c10000", "AFX_FG_KEY_H_U"),
  ("8d568143-847e-11d5-935a-50f857c10000", "AFX_FG_KEY_S_U"),
  ("8d568144-847e-11d5-935a-50f857c10000", "AFX_FG_KEY_L_U"),
  ("8d568145-847e-11d5-935a-50f857c10000", "AFX_FG_KEY_GAIN_U"),
  ("8d568146-847e-11d5-935a-50f857c10000", "AFX_FG_KEY_SOFT_U"),
  ("8d568147-847e-11d5-935a-50f857c10000", "AFX_BG_H_U"),
  ("8d568148-847e-11d5-935a-50f857c10000", "AFX_BG_S_U"),
  ("8d568149-847e-11d5-935a-50f857c10000", "AFX_BG_L_U"),
  ("8d56814d-847e-11d5-935a-50f857c10000", "AFX_FG_KEY2_ENABLED_U"),
  ("8d568153-847e-11d5-935a-50f857c10000", "AFX_FG_KEY_SS_ENABLED_U"),
  ("8d568170-847e-11d5-935a-50f857c10000", "AFX_ASPECT_SOURCE_U"),
  ("8d568171-847e-11d5-935a-50f857c10000", "AFX_ASPECT_TARGET_U"),
  ("8d568184-847e-11d5-935a-50f857c10000", "AFX_CC_LUMA_BRIGHTNESS_U"),
  ("8d568185-847e-11d5-935a-50f857c10000", "AFX_CC_LUMA_CONTRAST_U"),
  ("8d568186-847e-11d5-935a-50f857c10000", "AFX_CC_LUMA_WCLIP_U"),
  ("8d568187-847e-11d5-935a-50f857c10000", "AFX_CC_LUMA_BCLIP_U"),
  ("8d568188-847e-11d5-935a-50f857c10000", "AFX_CC_LUMA_WPOINT_U"),
  ("8d568189-847e-11d5-935a-50f857c10000", "AFX_CC_LUMA_BPOINT_U"),
  ("8d56818a-847e-11d5-935a-50f857c10000", "AFX_CC_LUMA_GPOINT_U"),
  ("8d56818b-847e-11d5-935a-50f857c10000", "AFX_CC_LUMA_INVERT_U"),
  ("8d56818d-847e-11d5-935a-50f857c10000", "AFX_CC_CHROMA_H_U"),
  ("8d56818e-847e-11d5-935a-50f857c10000", "AFX_CC_CHROMA_S_U"),
  ("8d56818f-847e-11d5-935a-50f857c10000", "AFX_CC_CHROMA_INVERT_U"),
  ("8d568190-847e-11d5-935a-50f857c10000", "AFX_CC_STYLE_POSTERIZE_U"),
  ("8d568191-847e-11d5-935a-50f857c10000", "AFX_CC_STYLE_SOLARIZE_U"),
  ("8d568192-847e-11d5-935a-50f857c10000", "AFX_CC_GAIN_R_U"),
  ("8d568193-847e-11d5-935a-50f857c10000", "AFX_CC_GAIN_G_U")]

/-- `PARAMETER_UUIDS` (src/avb/parameter_uuids.py:346-394). -/
def table7 : List (String × String) := [
  ("8d568194-847e-11d5-935a-50f857c10000", "AFX_CC_GAIN_B_U"),
  ("8d568196-847e-11d5-935a-50f857c10000", "DVE_SHAPE_ENABLED_U"),
  ("8d568197-847e-11d5-935a-50f857c10000", "DVE_SHAPE_U"),
  ("8d56819b-847e-11d5-935a-50f857c10000", "DVE_WARP_RADIUS_U"),
  ("8d56819c-847e-11d5-935a-50f857c10000", "DVE_WARP_OFFSET_U"),
  ("8d56819d-847e-11d5-935a-50f857c10000", "DVE_WARP_AXIS_ANGLE_U"),
  ("8d56819e-847e-11d5-935a-50f857c10000", "DVE_WARP_X_U"),
  ("8d56819f-847e-11d5-935a-50f857c10000", "DVE_WARP_Y_U"),
  ("8d5681a0-847e-11d5-935a-50f857c10000", "DVE_WARP_ASPECT_U"),
  ("8d5681a1-847e-11d5-935a-50f857c10000", "DVE_WARP_FREQ_U"),
  ("8d5681a2-847e-11d5-935a-50f857c10000", "DVE_WARP_AMPLT_U"),
  ("8d5681a4-847e-11d5-935a-50f857c10000", "DVE_WARP_CURVE_U"),
  ("8d5681a6-847e-11d5-935a-50f857c10000", "DVE_WARP_SKEW_ANGLE_U"),
  ("8d5681a7-847e-11d5-935a-50f857c10000", "DVE_WARP_SKEW_AMPLT_U"),
  ("8d5681a9-847e-11d5-935a-50f857c10000", "DVE_POS_ENABLED_U"),
  ("8d5681aa-847e-11d5-935a-50f857c10000", "DVE_POS_X_U"),
  ("8d5681ab-847e-11d5-935a-50f857c10000", "DVE_POS_Y_U"),
  ("8d5681ac-847e-11d5-935a-50f857c10000", "DVE_POS_Z_U"),
  ("8d5681b1-847e-11d5-935a-50f857c10000", "DVE_POS_TRACK_U"),
  ("8d5681b2-847e-11d5-935a-50f857c10000", "DVE_SCALE_ENABLED_U"),
  ("8d5681b3-847e-11d5-935a-50f857c10000", "DVE_SCALE_X_U"),
  ("8d5681b4-847e-11d5-935a-50f857c10000", "DVE_SCALE_Y_U"),
  ("8d5681b6-847e-11d5-935a-50f857c10000", "DVE_SCALE_TRACK_U"),
  ("8d5681b7-847e-11d5-935a-50f857c10000", "DVE_ROT_ENABLED_U"),
  ("8d5681b8-847e-11d5-935a-50f857c10000", "DVE_ROT_X_U"),
  ("8d5681b9-847e-11d5-935a-50f857c10000", "DVE_ROT_Y_U"),
  ("8d5681ba-847e-11d5-935a-50f857c10000", "DVE_ROT_Z_U"),
  ("8d5681bb-847e-11d5-935a-50f857c10000", "DVE_ROT_TRACK_U"),
  ("8d5681bd-847e-11d5-935a-50f857c10000", "DVE_AXIS_X_U"),
  ("8d5681be-847e-11d5-935a-50f857c10000", "DVE_AXIS_Y_U"),
  ("8d5681bf-847e-11d5-935a-50f857c10000", "DVE_AXIS_Z_U"),
  ("8d5681c1-847e-11d5-935a-50f857c10000", "DVE_TRGT_X_U"),
  ("8d5681c2-847e-11d5-935a-50f857c10000", "DVE_TRGT_Y_U"),
  ("8d5681c3-847e-11d5-935a-50f857c10000", "DVE_TRGT_SZE_U"),
  ("8d5681c4-847e-11d5-935a-50f857c10000", "DVE_PRSP_ENABLED_U"),
  ("8d5681c5-847e-11d5-935a-50f857c10000", "DVE_PRSP_X_U"),
  ("8d5681c6-847e-11d5-935a-50f857c10000", "DVE_PRSP_Y_U"),
  ("8d5681c7-847e-11d5-935a-50f857c10000", "DVE_PRSP_Z_U"),
  ("8d5681c8-847e-11d5-935a-50f857c10000", "DVE_SKEW_ENABLED_U"),
  ("8d5681c9-847e-11d5-935a-50f857c10000", "DVE_SKEW_X_U"),
  ("8d5681ca-847e-11d5-935a-50f857c10000", "DVE_SKEW_Y_U"),
  ("8d5681cb-847e-11d5-935a-50f857c10000", "DVE_CROP_ENABLED_U"),
  ("8d5681cc-847e-11d5-935a-50f857c10000", "DVE_CROP_LEFT_U"),
  ("8d5681cd-847e-11d5-935a-50f857c10000", "DVE_CROP_RIGHT_U"),
  ("8d5681ce-847e-11d5-935a-50f857c10000", "DVE_CROP_TOP_U"),
  ("8d5681cf-847e-11d5-935a-50f857c10000", "DVE_CROP_BOTTOM_U"),
  ("8d5681d0-847e-11d5-935a-50f857c10000", "DVE_BORDER_ENABLED_U"),
  ("8d5681d1-847e-11d5-935a-50f857c10000", "DVE_BORDER_TYPE_U"),
  ("8d5681d2-847e-11d5-935a-50f857c10000", "DVE_BORDER_WIDTH_U")]

/-- `PARAMETER_UUIDS` (src/avb/parameter_uuids.py:395-443). -/
def table8 : List (String × String) := [
  ("8d5681d3-847e-11d5-935a-50f857c10000", "DVE_BORDER_SOFT_U"),
  ("8d5681d4-847e-11d5-935a-50f857c10000", "DVE_BORDER_H_U"),
  ("8d5681d5-847e-11d5-935a-50f857c10000", "DVE_BORDER_S_U"),
  ("8d5681d6-847e-11d5-935a-50f857c10000", "DVE_BORDER_L_U"),
  ("8d5681d7-847e-11d5-935a-50f857c10000", "DVE_HLTE_ENABLED_U"),
  ("8d5681d8-847e-11d5-935a-50f857c10000", "DVE_HLTE_RADIUS_U"),
  ("8d5681d9-847e-11d5-935a-50f857c10000", "DVE_HLTE_INTSTY_U"),
  ("8d5681da-847e-11d5-935a-50f857c10000", "DVE_HLTE_AXIS_ANGLE_U"),
  ("8d5681db-847e-11d5-935a-50f857c10000", "DVE_HLTE_ASPECT_U"),
  ("8d5681dc-847e-11d5-935a-50f857c10000", "DVE_HLTE_X_U"),
  ("8d5681dd-847e-11d5-935a-50f857c10000", "DVE_HLTE_Y_U"),
  ("8d5681de-847e-11d5-935a-50f857c10000", "DVE_HLTE_SOFT_U"),
  ("8d5681df-847e-11d5-935a-50f857c10000", "DVE_DFCS_ENABLED_U"),
  ("8d5681e0-847e-11d5-935a-50f857c10000", "DVE_DFCS_HORIZ_U"),
  ("8d5681e1-847e-11d5-935a-50f857c10000", "DVE_DFCS_VERT_U"),
  ("8d5681e3-847e-11d5-935a-50f857c10000", "DVE_SHDW_X_U"),
  ("8d5681e4-847e-11d5-935a-50f857c10000", "DVE_SHDW_Y_U"),
  ("8d5681e6-847e-11d5-935a-50f857c10000", "DVE_SHDW_OPACITY_U"),
  ("8d5681e8-847e-11d5-935a-50f857c10000", "DVE_TRAIL_DECAY_U"),
  ("8d5681ea-847e-11d5-935a-50f857c10000", "DVE_TRAIL_SPKL_ENABLED_U"),
  ("8d5681ec-847e-11d5-935a-50f857c10000", "DVE_MT_PRIORITY_U"),
  ("8d5681ed-847e-11d5-935a-50f857c10000", "DVE_MT_WARP_FOREGROUND_U"),
  ("8d5681ee-847e-11d5-935a-50f857c10000", "DVE_MT_KEY_OPACITY_U"),
  ("8d5681f0-847e-11d5-935a-50f857c10000", "DVE_MT_STAMP_U"),
  ("8d5681f1-847e-11d5-935a-50f857c10000", "DVE_MT_CLEAR_U"),
  ("8d5681f2-847e-11d5-935a-50f857c10000", "DVE_FG_KEY_ENABLED_U"),
  ("8d5681f3-847e-11d5-935a-50f857c10000", "DVE_FG_KEY_TYPE_U"),
  ("8d5681f5-847e-11d5-935a-50f857c10000", "DVE_FG_KEY_SWAP_SOURCES_U"),
  ("8d5681f6-847e-11d5-935a-50f857c10000", "DVE_FG_KEY_OPACITY_U"),
  ("8d5681f7-847e-11d5-935a-50f857c10000", "DVE_FG_KEY_HUE_ANGLE_U"),
  ("8d5681f8-847e-11d5-935a-50f857c10000", "DVE_FG_KEY_SAT_U"),
  ("8d5681f9-847e-11d5-935a-50f857c10000", "DVE_FG_KEY_LUM_U"),
  ("8d5681fa-847e-11d5-935a-50f857c10000", "DVE_FG_KEY_DISC_U"),
  ("8d5681fb-847e-11d5-935a-50f857c10000", "DVE_FG_KEY_LOW_SAT_U"),
  ("8d5681fc-847e-11d5-935a-50f857c10000", "DVE_FG_KEY_HIGH_SAT_U"),
  ("8d5681fe-847e-11d5-935a-50f857c10000", "DVE_FG_KEY_LUM_THRESH_U"),
  ("8d5681ff-847e-11d5-935a-50f857c10000", "DVE_FG_KEY_LUM_SOFT_U"),
  ("8d568200-847e-11d5-935a-50f857c10000", "DVE_FG_KEY_LUM_USE_RANGE_U"),
  ("8d568201-847e-11d5-935a-50f857c10000", "DVE_FG_KEY_LUM_RANGE_U"),
  ("8d568202-847e-11d5-935a-50f857c10000", "DVE_FG_KEY_SS_GAIN_U"),
  ("8d568203-847e-11d5-935a-50f857c10000", "DVE_FG_KEY_SS_SOFT_U"),
  ("8d568206-847e-11d5-935a-50f857c10000", "DVE_BG_ENABLED_U"),
  ("8d568207-847e-11d5-935a-50f857c10000", "DVE_BG_H_U"),
  ("8d568208-847e-11d5-935a-50f857c10000", "DVE_BG_S_U"),
  ("8d568209-847e-11d5-935a-50f857c10000", "DVE_BG_L_U"),
  ("8d56820a-847e-11d5-935a-50f857c10000", "DVE_CORNER_PIN_ENABLED_U"),
  ("8d56820b-847e-11d5-935a-50f857c10000", "DVE_CORNER_PIN_X0_U"),
  ("8d56820c-847e-11d5-935a-50f857c10000", "DVE_CORNER_PIN_Y0_U"),
  ("8d56820d-847e-11d5-935a-50f857c10000", "DVE_CORNER_PIN_X1_U")]

/-- `PARAMETER_UUIDS` (src/avb/parameter_uuids.py:444-492). -/
def table9 : List (String × String) := [
  ("8d56820e-847e-11d5-935a-50f857c10000", "DVE_CORNER_PIN_Y1_U"),
  ("8d56820f-847e-11d5-935a-50f857c10000", "DVE_CORNER_PIN_X2_U"),
  ("8d568210-847e-11d5-935a-50f857c10000", "DVE_CORNER_PIN_Y2_U"),
  ("8d568211-847e-11d5-935a-50f857c10000", "DVE_CORNER_PIN_X3_U"),
  ("8d568212-847e-11d5-935a-50f857c10000", "DVE_CORNER_PIN_Y3_U"),
  ("8d568215-847e-11d5-935a-50f857c10000", "DVE_CORNER_PIN_T0_U"),
  ("8d568216-847e-11d5-935a-50f857c10000", "DVE_CORNER_PIN_T1_U"),
  ("8d568217-847e-11d5-935a-50f857c10000", "DVE_CORNER_PIN_T2_U"),
  ("8d568218-847e-11d5-935a-50f857c10000", "DVE_CORNER_PIN_T3_U"),
  ("8d56821a-847e-11d5-935a-50f857c10000", "DVE_FG_KEY_SHOW_ALPHA_U"),
  ("8d56821c-847e-11d5-935a-50f857c10000", "DVE_DEFOCUS_MODE_U"),
  ("8d56821d-847e-11d5-935a-50f857c10000", "DVE_DEEP_DEFOCUS_HORIZONTAL_FG_U"),
  ("8d56821e-847e-11d5-935a-50f857c10000", "DVE_DEEP_DEFOCUS_VERTICAL_FG_U"),
  ("8d56821f-847e-11d5-935a-50f857c10000", "DVE_DEEP_DEFOCUS_HORIZONTAL_KEY_U"),
  ("8d568220-847e-11d5-935a-50f857c10000", "DVE_DEEP_DEFOCUS_VERTICAL_KEY_U"),
  ("8d568221-847e-11d5-935a-50f857c10000", "DVE_DEEP_DEFOCUS_KEYBLUR_OFFSET_U"),
  ("8d568222-847e-11d5-935a-50f857c10000", "DVE_CUSTOM_HIGHLIGHT_ENABLED_U"),
  ("8d568223-847e-11d5-935a-50f857c10000", "DVE_CUSTOM_HIGHLIGHT_H_U"),
  ("8d568224-847e-11d5-935a-50f857c10000", "DVE_CUSTOM_HIGHLIGHT_S_U"),
  ("8d568225-847e-11d5-935a-50f857c10000", "DVE_CUSTOM_HIGHLIGHT_L_U"),
  ("8d568226-847e-11d5-935a-50f857c10000", "DVE_CUSTOM_LOWLIGHT_ENABLED_U"),
  ("8d568227-847e-11d5-935a-50f857c10000", "DVE_CUSTOM_LOWLIGHT_H_U"),
  ("8d568228-847e-11d5-935a-50f857c10000", "DVE_CUSTOM_LOWLIGHT_S_U"),
  ("8d568229-847e-11d5-935a-50f857c10000", "DVE_CUSTOM_LOWLIGHT_L_U"),
  ("8d56822a-847e-11d5-935a-50f857c10000", "DVE_SPILL_SUPPRESSION_ENABLED_U"),
  ("8d56822d-847e-11d5-935a-50f857c10000", "DVE_SPILL_REPLACEMENT_L_U"),
  ("8d56822e-847e-11d5-935a-50f857c10000", "DVE_SPILL_USE_KEY_COLOR_U"),
  ("8d56822f-847e-11d5-935a-50f857c10000", "DVE_SPILL_TARGET_H_U"),
  ("8d568230-847e-11d5-935a-50f857c10000", "DVE_SPILL_TARGET_S_U"),
  ("8d568231-847e-11d5-935a-50f857c10000", "DVE_SPILL_TARGET_L_U"),
  ("8d568232-847e-11d5-935a-50f857c10000", "DVE_ERODE_ENABLED_U"),
  ("8d568233-847e-11d5-935a-50f857c10000", "DVE_ERODE_FILTER_WIDTH_U"),
  ("8d568234-847e-11d5-935a-50f857c10000", "DVE_ERODE_MIDPOINT_U"),
  ("8d568235-847e-11d5-935a-50f857c10000", "DVE_ERODE_SOFTNESS_U"),
  ("8d568279-847e-11d5-935a-50f857c10000", "DVE_TRACKING_ENABLED_U"),
  ("8d56827a-847e-11d5-935a-50f857c10000", "PARAM_OFFSET_MAP_U"),
  ("8d56827b-847e-11d5-935a-50f857c10000", "PARAM_VECTOR_EDIT_U"),
  ("8d56827c-847e-11d5-935a-50f857c10000", "PARAM_SPEED_MAP_U"),
  ("8d56827d-847e-11d5-935a-50f857c10000", "PARAM_SPEED_OFFSET_MAP_U"),
  ("8d568283-847e-11d5-935a-50f857c10000", "PARAM_PULLDOWN_PHASE_U"),
  ("8d568288-847e-11d5-935a-50f857c10000", "AFX_BORDER_FIXED_U"),
  ("8d568289-847e-11d5-935a-50f857c10000", "NumXBlocks"),
  ("8d56828a-847e-11d5-935a-50f857c10000", "NumYBlocks"),
  ("8d56828b-847e-11d5-935a-50f857c10000", "AFX_ANALYSIS_MODE"),
  ("8d56828e-847e-11d5-935a-50f857c10000", "DVE_TRACKING_POS_U"),
  ("8d56828f-847e-11d5-935a-50f857c10000", "AFX_GRID_ENABLED"),
  ("8d568290-847e-11d5-935a-50f857c10000", "AFX_GRID_TYPE"),
  ("8d568291-847e-11d5-935a-50f857c10000", "AFX_GRID_TRANSFER"),
  ("8d568292-847e-11d5-935a-50f857c10000", "AFX_GRID_FIELDS")]

/-- `PARAMETER_UUIDS` (src/avb/parameter_uuids.py:493-541). -/
def table10 : List (String × String) := [
  ("8d568293-847e-11d5-935a-50f857c10000", "AFX_GRID_SUBFIELDS"),
  ("8d568294-847e-11d5-935a-50f857c10000", "AFX_GRID_SRC_WID"),
  ("8d568295-847e-11d5-935a-50f857c10000", "AFX_GRID_SRC_HEI"),
  ("8d568296-847e-11d5-935a-50f857c10000", "AFX_GRID_SRC_OFF_H"),
  ("8d568297-847e-11d5-935a-50f857c10000", "AFX_GRID_SRC_OFF_V"),
  ("8d568298-847e-11d5-935a-50f857c10000", "AFX_GRID_SRC_INSET"),
  ("8d568299-847e-11d5-935a-50f857c10000", "AFX_GRID_HPOS_OFFSET"),
  ("8d56829a-847e-11d5-935a-50f857c10000", "AFX_GRID_VPOS_OFFSET"),
  ("8d56829b-847e-11d5-935a-50f857c10000", "AFX_GRID_HSCALE_OFFSET"),
  ("8d56829c-847e-11d5-935a-50f857c10000", "AFX_GRID_VSCALE_OFFSET"),
  ("8d56829d-847e-11d5-935a-50f857c10000", "DVE_TRACKING_FOURPT_INVERT"),
  ("8d56829e-847e-11d5-935a-50f857c10000", "DVE_TRACKING_POS_INVERT"),
  ("8d56829f-847e-11d5-935a-50f857c10000", "DVE_TRACKING_SCALE_INVERT"),
  ("8d5682a0-847e-11d5-935a-50f857c10000", "DVE_TRACKING_ROT_INVERT"),
  ("8d56830e-847e-11d5-935a-50f857c10000", "PP_IN_TANGENT_POS_U"),
  ("8d56830f-847e-11d5-935a-50f857c10000", "PP_IN_TANGENT_VAL_U"),
  ("8d568310-847e-11d5-935a-50f857c10000", "PP_OUT_TANGENT_POS_U"),
  ("8d568311-847e-11d5-935a-50f857c10000", "PP_OUT_TANGENT_VAL_U"),
  ("8d568312-847e-11d5-935a-50f857c10000", "PP_TANGENT_MODE_U"),
  ("8d568313-847e-11d5-935a-50f857c10000", "PP_BASE_FRAME_U"),
  ("8d9cb6b1-7be9-4ab7-9e0e-f0dfa4512eb7", "AFX_SPATIAL_FRAMING_HEI"),
  ("8dde1839-6862-4874-a1e9-4fbd1164f22a", "AvidMotionOutputFormat"),
  ("8eb72937-03e4-4fbd-afe8-1c5396fbfc33", "Blue"),
  ("8f32fa40-3b04-4c24-b7e6-878ce2c35ac5", "AFX_SPATIAL_DVE_ROT_DEFAULT"),
  ("8f9a3720-2fad-452d-be52-59c444f250d9", "Bin Column"),
  ("8fe5c48d-f2ad-4983-932f-fe9af48ffeb9", "Color Gradient"),
  ("90489388-8297-4ec4-9324-9e324db5dd7e", "Display Fields"),
  ("922d458d-8f22-11d4-a03c-0004ac969f50", "PanVol_IsTrimGainEffect"),
  ("9282b1aa-4830-4c54-8fe3-e4297642eab2", "Offset Shd Amount Src"),
  ("92940b43-0e53-44f8-a1e5-e4307229c6b5", "Custom Column Name"),
  ("929aa21b-2657-319a-8166-ae7ce567732c", "AFX_YCKEY_SAT"),
  ("92e60b23-6b35-4a16-98bd-576762c36558", "Horizontal Origin"),
  ("93001c0a-0ad9-44e4-f95a-b928ba3d319d", "Clean Precompute"),
  ("93994bd6-a81d-11d3-a05b-006094eb75cb", "AvidEffectID"),
  ("93bb18f6-9f01-4e1f-b1f5-2ba2c723f72d", "Effect Type"),
  ("93fa3338-d3cd-4494-ad66-938d3160e363", "UseUTF16Notes"),
  ("94580fb4-a0ad-4d10-aba5-7d4fea016af1", "Sec Wedge Vec5 Bypass"),
  ("94f05a26-bdaf-4249-b888-98df7067f9f5", "Opacity"),
  ("983246d5-c0ab-49d5-8bc3-73e9ebebe53a", "Vertical Position"),
  ("98588b9c-908d-4327-9581-f10807b9684f", "Hide Anchor Point"),
  ("9900d01e-ed98-4ed0-8154-5c570966978a", "AvidLFEGain"),
  ("99a331fb-205f-4f13-a372-192393adc7ce", "Sec Wedge Out Sat4"),
  ("99cce31d-cb14-4014-93f1-2fb2f9a22143", "HV Skew"),
  ("99e3106a-251c-4713-82f9-dbec599fecf4", "Mas Hue Src"),
  ("9a1cf94b-40a4-4cd1-abaf-6cbbc3b6d8fb", "NotesUTF16"),
  ("9bf5edfd-decb-4ac2-ba10-71f625c58c13", "Blue"),
  ("9c894ba0-2277-11d3-8a4c-0050040ef7d2", "Reverse"),
  ("9ccb49d2-dc63-4ca8-3050-fb49215a36b9", "Hide Anchor Point"),
  ("9da5a764-4c77-3f48-94ba-f20ae4d5bfcd", "X")]

/-- `PARAMETER_UUIDS` (src/avb/parameter_uuids.py:542-590). -/
def table11 : List (String × String) := [
  ("9e10e196-a17b-4863-9488-67521447bff7", "AvidCh2SideCenterPercent"),
  ("9eb602c1-053e-4e17-9c35-78b9b373a83c", "Offset Bypass Src"),
  ("9f37d0dc-bbe6-4cfa-9d65-1a242a28a97a", "AFX_SPATIAL_FRAMING_HEI_CLIP"),
  ("9fdd75c5-53f4-46ef-95ea-e556cf72027d", "Horizontal Position"),
  ("a0358d99-7933-434b-a42c-9d66c888f70d", "Blue"),
  ("a293cc8d-bab7-41ef-bac6-2f361749646a", "AvidCh2PositionRear"),
  ("a2c7b884-8ad8-4bd4-9c66-f8493c49ee04", "Selection mode"),
  ("a2e74203-8527-4f5a-aa16-4bac4607510f", "AFX_ORIG_CROP_BOTTOM"),
  ("a4fa1dc3-7386-4fa0-ffca-ab9cdd995ac6", "Alignment Vertical"),
  ("a54cdd1b-f782-4546-9ad1-75f0d3b74dd9", "Horizontal Position"),
  ("a5bc8a63-479b-4d85-b92d-a5061c81d62b", "Hilite"),
  ("a5c61127-9e98-44fc-9cd6-58b0fc98dc87", "Width"),
  ("a60cb308-9913-401b-896d-5c5430dc2daf", "Frame Shape"),
  ("a6470718-21f6-4055-8699-e700c0c0b61a", "Film Type"),
  ("a6750514-12f9-4030-9595-d06fc8139e12", "Notes"),
  ("a6de37cc-0c3f-4ba1-86f1-17db7a153cb2", "AvidCh1SideCenterPercent"),
  ("a7c17fcc-d77e-4892-a653-688bd618aa41", "AvidCh1DivergenceRear"),
  ("a7fb55bb-86a2-4ed9-8594-e8e432eb9c6f", "AvidCh2PositionFront"),
  ("a86c9c25-8bb6-41b5-a2a6-4e4090aa9cf8", "Vertical Position"),
  ("a8967816-7093-4475-97cf-93e8a1b1b72d", "HV Skew"),
  ("a91ade36-8f7a-4633-995e-a6aa96c09218", "HSL Setup Bypass"),
  ("a94b8019-468c-40ad-b409-7e6766fbd5dd", "Bin Timecodes Column"),
  ("a95da51b-d9f9-4af1-84a5-f121b3b00075", "AFX_SPATIAL_FRAMING_WID_DEN"),
  ("aad2ee3e-e555-43c2-bcc4-d2d11b245553", "Text Box Text"),
  ("ab066a7b-cccd-4c72-98e7-6ab0be7de7bb", "Sec Wedge In SatMin4"),
  ("ab075209-c71c-3440-b878-eb65ab5c1767", "AFX_YCKEY_FILTERLEVEL"),
  ("ac11ea11-9f3f-4d7a-b433-0759d66623b3", "Horizontal Position"),
  ("ad0cf9fe-099d-44c9-be52-19aadf9addbe", "Film Type"),
  ("ad2f7357-872e-357b-81eb-7231d823e88d", "AFX_YCKEY_OVERLAPMULT"),
  ("ad43975b-0757-4b83-a1dd-b2ccb1d31f2f", "Vertical Position"),
  ("ad66f156-a364-3855-b247-1637c3bf5dca", "Y"),
  ("ad6816ef-2911-48ca-897b-92960afd0707", "Vertical Size"),
  ("adbf2c71-1959-4228-891d-786cb8e1c9af", "Bin Column"),
  ("aea1f133-b100-4326-93b6-1e1ef167e053", "RGB Gamut H"),
  ("af2c52f5-00f7-44f3-bded-a6bc7d8feb71", "Vertical Origin"),
  ("af4ccf13-475c-472a-9fb8-4060915d4a24", "Vertical Size"),
  ("af59dadf-7558-47f1-bb4e-06ae3d3dfdc8", "Line Weight"),
  ("af8baaec-c543-48f8-a32c-4997fea50062", "Vertical Position"),
  ("afaa1365-6f7a-4b14-900e-a001166ed2c3", "AFX_SPATIAL_SOURCE_HEI_DEN"),
  ("b05d7ff8-4524-4b24-9529-a209cf7e03a4", "Shd Saturation"),
  ("b0b35c24-6a36-33bb-9726-c396841c8f85", "AFX_YCKEY_SHOWALPHA"),
  ("b16d164d-fc1d-46eb-9b5b-c51b237c7a91", "Horizontal Size"),
  ("b1a81e4f-8a37-4437-8a4d-b2c60f6d9176", "Horizontal Scale"),
  ("b26425e7-d6af-41dd-8cdc-c23095aa09b8", "AFX_SPATIAL_SOURCE_POSY_NUM"),
  ("b28215f4-d884-45c5-86a1-5eb122aa598b", "Connect to safe title"),
  ("b30ae6a6-030a-427a-af96-e1715837125b", "AFX_SPATIAL_SOURCE_HEI_NUM"),
  ("b35edfd0-d43f-41d7-9ed7-c8928d463bff", "Offset Hlt Amount"),
  ("b3d7600c-dbdf-40dc-9f92-b9fbbbe17580", "AFX_SPATIAL_FRAMING_WID"),
  ("b3ef87cd-c7be-4528-bd50-d31b01ebb88a", "Offset Mid Amount Src")]

/-- `PARAMETER_UUIDS` (src/avb/parameter_uuids.py:591-639). -/
def table12 : List (String × String) := [
  ("b459dca6-ed60-4647-86d1-d8730e4aec1d", "Height"),
  ("b4e310c6-ff4a-45cf-bd0a-44a2bfb17d4f", "Curves Master"),
  ("b504fd08-598e-48f6-923f-9355c5f00de0", "AFX_SPATIAL_FRAMING_POSY_CLIP"),
  ("b56df007-dec6-4a2b-a2a9-82d8f3bd434a", "Bin Column"),
  ("b5d3b187-84a9-46ec-b5d3-d77ce2632873", "AFX_NEED_ACCUMULATION_BUFFER_U"),
  ("b67feec7-cbde-40f4-8e0a-7ab4f86d8c6b", "Render Force"),
  ("b74bd2eb-6ac4-4b92-9af1-44c8b6d782cf", "Hlt Gain"),
  ("b7fa3edc-9fc4-4647-8310-1b7f7bd6c42b", "Vertical Origin"),
  ("b81d505c-dc0a-4aa4-8d73-bc02ac45d572", "Invert Chroma"),
  ("b85d3f12-680d-4b3b-a357-d03d82519eab", "Sec Wedge In SatMin0"),
  ("b9e95834-9a13-408d-bdd2-d637f5333e4a", "Horizontal Position"),
  ("ba4734f3-e522-4f68-bad9-90f302752058", "Bin Timecodes Column"),
  ("baa69369-e559-4f7f-9bd8-35989841cd7d", "Color Gradient"),
  ("bb4a3b8c-3c13-4d31-86b2-a3fa611d8794", "Hlt Setup"),
  ("bb793b3e-aa25-4bba-8fcf-af72187e3f6e", "Rotate Baseline"),
  ("bc4b21e5-b30b-46b0-8d36-508735967077", "Include Spaces"),
  ("bc5e1686-0611-4d16-8df5-811f5f50ec8d", "Composite Units"),
  ("bc68e659-e2b7-4e4a-b889-207c1f911b63", "Underline Shape"),
  ("bd164267-a373-4f41-b92f-db9503e0c850", "AFX_SPATIAL_ESSENCE_WID_NUM"),
  ("bd282cc0-d3df-4f10-91e4-3d9673a3c48f", "Scale Fixed Aspect"),
  ("bd7f5cd8-15fd-424e-a34d-11642fbbb867", "TransformationDesc"),
  ("bdeb401e-8bb9-4251-99d2-0d744af9fe1a", "Softness"),
  ("bf5c6392-e889-468f-a953-c5b2a3ebd0fa", "Blue"),
  ("bfc66577-7fe4-407a-a577-b3f3beb3819d", "Font Size"),
  ("c0038672-a8cf-11d3-a05b-006094eb75cb", "AvidParameterByteOrder"),
  ("c12e069f-ad5e-4c45-a7c5-ac961bf6e39e", "Curves Green"),
  ("c203e5a8-c3d9-4d7a-b4fd-bcb59fe26463", "Hilite"),
  ("c224fec8-6a36-4899-b72a-b4c3e6027ef5", "AFX_SPATIAL_ESSENCE_POSY_DEN"),
  ("c226a114-2298-4553-b1d2-e8b9ed439c13", "AvidCh2FrontCenterPercent"),
  ("c28e5282-dc2f-4499-8317-575a69cd92b3", "Offset Shd Hue"),
  ("c4954328-a1b3-40c8-8082-70ed8c09297c", "Hlt Contrast"),
  ("c51f611a-2d7e-4f2f-98ca-af6e76dfaad0", "Custom Column Name"),
  ("c529a163-2937-44c1-b73e-19abe4ab07c9", "Vertical Position"),
  ("c592b116-313f-4c48-eee9-8e003d5b6a56", "Effect position Edit Mode"),
  ("c5ee5cd3-34e7-45cc-ab52-14b5f5d6c9e1", "Sec Wedge Delta Lum4"),
  ("c5f66319-fd7e-4d67-a668-4fdb672afc6a", "Horizontal Offset"),
  ("c6219ca9-820a-4468-8545-285fc46d5236", "PrivateJSON"),
  ("c68cb0cd-17db-4c75-8f00-884b806313fd", "Green"),
  ("c6b284b0-db34-4e7f-9f94-a313cba84b4f", "Display Label"),
  ("c712ce4f-5a5f-4d91-96f2-c569ef7b73a7", "Vertical Offset"),
  ("c72888dd-e6d7-4dce-85ce-cece8c2949e5", "AvidPannerKind"),
  ("c86a0c96-3e8b-4bab-9791-c337c9575316", "AvidCh1PositionFrontRear"),
  ("c8ded958-0a83-418a-84b1-a718513fa6f7", "Red"),
  ("c8fb8e70-4a05-4b33-bf62-3b073baebcf7", "Offset Hlt Hue"),
  ("c9129688-d29a-4c92-bf34-8158f6dda0a1", "Blue"),
  ("c92ad0d8-86fb-46eb-ab8f-ef01374f226a", "Softness"),
  ("c9b9ab5b-8837-43d7-b850-67299d338c68", "Offset Mas Amount Src"),
  ("cb0165ff-a5e4-4896-b0bd-aa4051fc5182", "Red"),
  ("cb24e512-e6d9-4168-868d-289f1b87905b", "Height")]

/-- `PARAMETER_UUIDS` (src/avb/parameter_uuids.py:640-688). -/
def table13 : List (String × String) := [
  ("cc1b87f8-163b-422b-b793-11a90575a407", "Skew"),
  ("ccced226-0eef-3773-8ee3-d91acdc9b200", "AFX_YCKEY_COLORR"),
  ("cd92bab5-3ae4-4e26-8e84-beb83682394e", "Curves Blue"),
  ("cde7fa80-69b0-445a-b9da-acf08208ea60", "AFX_SPATIAL_VALID_POSX_NUM"),
  ("cdf5cef8-596b-4bd4-94c2-a7db7127d804", "Color Gradient"),
  ("ce46081f-1e4b-48d7-b612-937bd56e79cb", "Bin Timecodes Column"),
  ("ce50a443-25fe-4a4f-ab51-5aae1fce9e64", "Direction"),
  ("ce65aa76-df18-4d0f-9adc-332c0295fdd2", "AvidCh2DivergenceFront"),
  ("cebfed29-4bc2-4b1d-886a-d873439de7a4", "Offset Hlt Amount Src"),
  ("cecbf010-5e2e-4f01-a384-42c64ca0c038", "Scale Fixed Aspect"),
  ("cee8ef34-7fcf-41b3-bb08-d1e68c89b07e", "HV Skew"),
  ("d118e18e-cd0c-47d5-a744-e1009fda5e32", "Type"),
  ("d2e23732-f603-41ec-9f1f-90fcbdc68e20", "Tracker"),
  ("d514b125-2d03-436e-a3ff-7bb9dc22f508", "Format"),
  ("d59dbc80-8f16-4ee2-aec9-a9516404ccda", "Ignore Hours"),
  ("d5d7b8b8-45df-48d9-afeb-06cf721be469", "AFX_SPATIAL_FRAMING_POSX_CLIP"),
  ("d657a468-b03f-4e29-a1d2-6c560c6d01d5", "Mid Gain"),
  ("d6be8f38-bff2-4791-956b-9bb2f005a7a3", "Offset Mid Bypass"),
  ("d7bafcee-7c01-4e9e-8111-c0521d3ce314", "Num Blue Curve Keys"),
  ("d82dd5ed-a163-47c3-ae72-018a29f827b5", "Green"),
  ("d84963b2-1b07-4289-9756-572b79dbb3a8", "AFX_SPATIAL_FRAMING_POSY"),
  ("d96ac0e3-a46d-43b4-a290-675e8613580a", "Sec Wedge In Hue4"),
  ("d97e8399-2b79-4330-a830-683581773417", "Tracker"),
  ("da209e7c-4bc9-416e-ae4d-eeabc6ce9137", "Green"),
  ("da56ef02-819a-378a-9c8e-8283678eb359", "X"),
  ("dacabc40-0bd6-4016-b270-0d0b17194609", "Sec Wedge In Sat0"),
  ("daef4b6e-e30f-4fe7-8a9a-75d25c173218", "Offset Mid Hue"),
  ("dba3adea-9e1a-4912-8293-de5bd37e01c3", "Format"),
  ("dbdb935e-db4c-4d27-aea1-02dd6c1d62e2", "Type"),
  ("dcf129ae-eb97-4c23-83db-4a3d2f5938cd", "AvidCh2DivergenceFrontRear"),
  ("dd11488e-cdc0-4873-9ba6-206ea08b6fc0", "Offset Shd Bypass"),
  ("dd224e72-d2e1-423a-8d6b-17e221d94471", "Line Weight"),
  ("de5f661a-7135-4475-9591-e00a7eb41951", "AFX_SPATIAL_FRAMING_POSX"),
  ("df35c269-01eb-4b07-bf26-d796ee6fb380", "Z Rotation"),
  ("e1f96800-5ee1-4543-a774-7a13904605e4", "Offset Mid Amount"),
  ("e23cbf37-e945-4271-88c5-8103378ef1ce", "AFX_SPATIAL_LOCK_ASPECT"),
  ("e2e0e769-0ff4-350c-9f3e-aeb23e09b449", "AFX_YCKEY_SATLINE"),
  ("e319c756-8a90-4803-86a1-84f106797f3a", "Display Fields"),
  ("e3443c19-4422-4f26-ac06-d36c5ec4081c", "Opacity"),
  ("e36f0b5e-81f8-4240-830b-22636a7f6283", "Shd Contrast"),
  ("e4962320-2267-11d3-8a4c-0050040ef7d2", "Level"),
  ("e4962322-2267-11d3-8a4c-0050040ef7d2", "Pan"),
  ("e4962323-2267-11d3-8a4c-0050040ef7d2", "SMPTEWipeNumber"),
  ("e4a8620d-b6c3-4366-a469-abffd34c26ac", "Format"),
  ("e539f84c-5eea-49ee-a381-df7fec2147d3", "Use Text Outline"),
  ("e5a302fe-22ed-40ab-ba0a-663f6bcc1dc9", "RGB Gamut L"),
  ("e5c6182d-54f3-315b-ba2b-396e07a6ef9d", "AFX_YCKEY_SPILLSAT"),
  ("e6f955c4-9b75-47cd-a66b-eae6a77cdf71", "Offset Mas Amount"),
  ("e735afe6-d828-45c3-b526-44e7ac24c691", "AudioASPIPresetPathID")]

/-- `PARAMETER_UUIDS` (src/avb/parameter_uuids.py:689-737). -/
def table14 : List (String × String) := [
  ("e796d51b-ab79-4311-a34d-f705115470b2", "Type"),
  ("e7eedb4f-5343-44ea-aa7e-0fe49e180631", "AFX_SPATIAL_FRAMING_POSX_NUM"),
  ("e81e8e9c-48a5-4ba6-be74-287025f4ef8d", "Num Green Curve Keys"),
  ("e90b5f85-51a5-4c8c-897d-5dd632fefb5e", "RGB Units"),
  ("e9142038-5b19-4d2a-8d6f-ffc04deab0ef", "Curves Master Bypass"),
  ("e9997287-17b6-4eb9-87d6-bb6da372ee08", "AFX_SPATIAL_ESSENCE_POSX_NUM"),
  ("e9e9f37e-1029-4cf3-8ab8-6ec719e07647", "AvidDefaultPan"),
  ("ea6611b6-c827-35be-a94e-73a8c7718316", "AFX_YCKEY_SWATCHLUMA"),
  ("eae3e18f-c933-4670-b9c3-606b6d69f44b", "HSL Bypass"),
  ("eb27c63d-5ac4-41a1-b44f-bd6cbb5c739f", "HSL Bypass Src"),
  ("ebef3f25-97a9-4272-8aa2-e6b2119c113e", "Z Rotation"),
  ("eca565de-baca-4b59-b177-abad63dfb320", "Horizontal Position"),
  ("ecaea72d-8381-418c-ac52-524ba2f7f61d", "Offset Hlt Bypass Src"),
  ("ed867755-0a09-3e6d-b1c3-460b9f10eb26", "X"),
  ("ed8738c9-5fa8-4e0a-a023-e75d084bbaf6", "Vertical  Scale"),
  ("ed95be70-92e4-4db9-ada3-c4c20ca38c39", "Hilite"),
  ("ee556712-b0b6-45e8-8d4f-61a7d93063d4", "AFX_SPATIAL_VALID_POSY_DEN"),
  ("eef06cc9-76e4-48e2-9ca2-f50120134c1a", "Luma Clip Hi"),
  ("ef617dfd-8cc3-43f6-bef0-52ab770db6f6", "Opacity"),
  ("f179a10d-cd4c-4d71-b7d6-8bbebc619f20", "Mas Setup Src"),
  ("f222bebb-a872-4023-a446-4e179a87ded9", "Hilite"),
  ("f25cfaab-4b64-4c92-985f-e49dc4b8fd90", "AFX_SPATIAL_ESSENCE_WID_DEN"),
  ("f4a60a98-40e3-323d-96a6-654d766937b1", "AFX_YCKEY_LUMALUTEN"),
  ("f6af4f0b-156b-4d29-b66d-c6014d72c930", "Vertical Origin"),
  ("f75eab65-ba3c-4d53-bfe8-a7ffb4a673f1", "Opacity"),
  ("f7e319cf-25a4-4c09-9069-1fb42501ac19", "Add Rectangle"),
  ("f7ec5d2c-c1c2-48b5-b034-b40b55f5a5a0", "AFX_SPATIAL_FRAMING_POSX_DEN"),
  ("f7ffed29-fc8e-43ed-943a-4b57b5c157ee", "AvidMotionPulldown"),
  ("f85ea441-94d4-471d-b363-db7f7e53f4f0", "Levels Bypass Src"),
  ("f8c03cba-ac1e-11d3-80e4-006008143e6f", "AvidEQBands"),
  ("f903758d-4507-4489-b926-d03326717e5e", "Amount"),
  ("f91052d5-68c3-4558-970a-894366d3c41a", "Mas Contrast Src"),
  ("f9c5c296-a9c7-4285-9db1-381df66a1442", "Italics"),
  ("f9e7a26e-6f93-4130-a9c3-e4d0e6e33775", "AFX_SPATIAL_VALID_HEI_NUM"),
  ("f9fea6e7-e7a5-4275-a15b-b0e5adaeefd1", "Secondary Bypass"),
  ("faed306c-0cef-46d3-a321-32f0f19e0069", "Mas Gain Src"),
  ("fb493202-491a-46a2-bbb6-e2ede849a078", "Opacity"),
  ("fb604448-2168-4c14-9b1c-695a51854e70", "HSL Range Bypass"),
  ("fb71aadc-793e-4d5f-62ef-ce7c27433d5b", "Edit Mode"),
  ("fb952806-f3f7-4f3e-9d5b-3022dd2d7d7c", "Secondary Lock"),
  ("fbd10010-d826-4dc6-972d-9a602d2478d8", "Custom Column Name"),
  ("fc9fbf7b-3629-4abf-8f08-fe4ac5121c7f", "Softness"),
  ("fcba3888-ca14-4dcc-8275-ec02f80971ee", "Hilite"),
  ("fd9c6aca-19b4-4603-9264-5bfe4196a232", "Line Weight"),
  ("fdb79644-b772-4ef6-a918-de6a9797ad85", "Horizontal Size"),
  ("fde432b4-d1f6-3a38-9c02-0aa820963f76", "AFX_YCKEY_FILTERLIST"),
  ("feb72a6b-d608-453f-9b5c-428b6b9fcdc3", "Shd Brightness"),
  ("fed0cdcf-c89f-444b-8b2d-930564bde27f", "Mas Gamma Src"),
  ("ff011fb9-9624-4247-8b67-08d416073567", "Color Gradient")]

/-- `PARAMETER_UUIDS` (src/avb/parameter_uuids.py:2-738), in the order of the file. -/
def parameterUuids : List (String × String) :=
  table0 ++ table1 ++ table2 ++ table3 ++ table4 ++ table5 ++ table6 ++ table7 ++
  table8 ++ table9 ++ table10 ++ table11 ++ table12 ++ table13 ++ table14

/-- `ParameterItem.parameter_name` (src/avb/misc.py:519-521). -/
def parameterName (x : ParameterItem) : Text :=
  match parameterUuids.find? fun p => p.1.toList = Print.uuidText x.uuid with
  | some p => p.2.toList
  | none => Print.uuidText x.uuid

/-- `ParameterItem.value_type_name` (src/avb/misc.py:523-532). -/
def valueTypeName (x : ParameterItem) : Text :=
  if x.value_type = 1 then "int".toList
  else if x.value_type = 2 then "double".toList
  else if x.value_type = 4 then "reference".toList
  else "unknown".toList

/-- `Track.media_kind` (src/avb/trackgroups.py:47-50); `deref` looks up a reference, `None` for 0.  `hasattr`
looks the component up, and takes an `AttributeError` for a missing one.  An `AttributeError` inside of a
property is raised again by `__getattr__` (src/avb/core.py:208-213). -/
def trackMediaKind (deref : Ref → Except Err (Option Obj)) (t : Track) : Except Err (Option Text) :=
  match t.component with
  | none => .ok none
  | some r =>
    match deref r with
    | .error e => if e = .attribute then .ok none else .error e
    | .ok none => .error .attribute
    | .ok (some o) => Resolve.mediaKindOf o

end Avb.Params
